import Verif.Proofs.NeptuneBij
import Mathlib.Data.ZMod.Basic
import Mathlib.Algebra.Field.ZMod

set_option autoImplicit false

/-!
# Properties of Neptune (C22-C26) and of the nonzero sampler (C33)

The random generator is modelled by the list `s` of field elements it is going to deliver; `NeptuneParams.new ... s =
some (P, r)` says that the constructor returned `P` and left `r` undelivered.
-/

namespace ZkHash

variable {dbg : Bool}

open Spec Matrix Fields Function

set_option linter.unusedSectionVars false

section
variable {F : Type} [Field F] [DecidableEq F]

/-! ## Sampling -/

/-- **C33.** `random_scalar_without_0` returns exactly when the generator delivers a nonzero element at some point, and
then it returns the first nonzero element, everything after it being left for later draws. -/
theorem C33_without_0 (s : List F) :
    (randomScalarWithout0 s = none ↔ ∀ x ∈ s, x = 0) ∧
    ∀ a r, randomScalarWithout0 s = some (a, r) ↔ a ≠ 0 ∧ ∃ n, s = List.replicate n 0 ++ a :: r := by
  induction s with
  | nil =>
    refine ⟨by simp [randomScalarWithout0], fun a r => ?_⟩
    simp [randomScalarWithout0]
  | cons x s ih =>
    unfold randomScalarWithout0
    by_cases hx : x = 0
    · subst hx
      simp only [if_true]
      refine ⟨by rw [ih.1]; simp, fun a r => ?_⟩
      rw [ih.2]
      constructor
      · rintro ⟨ha, n, rfl⟩
        exact ⟨ha, n + 1, by simp [List.replicate_succ]⟩
      · rintro ⟨ha, n, h⟩
        cases n with
        | zero =>
          simp at h
          exact absurd h.1.symm ha
        | succ n =>
          simp [List.replicate_succ] at h
          exact ⟨ha, n, h⟩
    · simp only [if_neg hx]
      refine ⟨by simp [hx], fun a r => ?_⟩
      constructor
      · intro h
        cases h
        exact ⟨hx, 0, rfl⟩
      · rintro ⟨ha, n, h⟩
        cases n with
        | zero =>
          simp at h
          rw [h.1, h.2]
        | succ n =>
          simp [List.replicate_succ] at h
          exact absurd h.1 hx

/-- Witness for C33: two zeros are skipped. -/
example : randomScalarWithout0 ([0, 0, 5, 0, 7] : List ℚ) = some (5, [0, 7]) := by decide +kernel

theorem NeptuneParams.without0_filter {s r : List F} {a : F} (h : randomScalarWithout0 s = some (a, r)) :
    s.filter (· ≠ 0) = a :: r.filter (· ≠ 0) := by
  obtain ⟨ha, n, rfl⟩ := ((C33_without_0 s).2 a r).mp h
  simp [ha]

/-! ## Layers -/

theorem NeptuneParams.ext_of_new {k d rounds_f rounds_p : Nat} {s r : List F} {P : NeptuneParams F}
    (h : NeptuneParams.new dbg (2 * k) d rounds_f rounds_p s = some (P, r)) :
    ∃ A B, NeptuneParams.Made k d rounds_f rounds_p P A B ∧
      (k = 2 → P.m_e = rowsOf (neptuneExt4 (F := F))) ∧ (k = 4 → P.m_e = rowsOf (neptuneExt8 (F := F))) := by
  obtain ⟨A, B, hm, s1, s2, he⟩ := NeptuneParams.new_post h
  refine ⟨A, B, hm, fun hk => ?_, fun hk => ?_⟩
  · subst hk
    rw [show 2 * 2 = 4 from rfl, NeptuneParams.external_four] at he
    simp only [Option.some.injEq, Prod.mk.injEq] at he
    exact he.1.symm
  · subst hk
    rw [show 2 * 4 = 8 from rfl, NeptuneParams.external_eight] at he
    simp only [Option.some.injEq, Prod.mk.injEq] at he
    exact he.1.symm

/-- **C22.** For constructed parameters (any even width, any random draws) the external layer is multiplication by the
stored matrix `m_e`, on every state, and `m_e` is zero at all positions of mixed parity. -/
theorem C22_external_layer {t d rounds_f rounds_p : Nat} {s r : List F} {P : NeptuneParams F}
    (h : NeptuneParams.new dbg t d rounds_f rounds_p s = some (P, r)) :
    ∃ M : Matrix (Fin t) (Fin t) F, P.m_e = rowsOf M ∧
      (∀ i j, i.val % 2 ≠ j.val % 2 → M i j = 0) ∧
      ∀ x : Fin t → F, Neptune.externalMatmul P (List.ofFn x) = some (List.ofFn (M *ᵥ x)) := by
  obtain ⟨k, rfl⟩ : ∃ k, t = 2 * k := ⟨t / 2, by have := NeptuneParams.new_even h; omega⟩
  obtain ⟨A, B, hm, h4, h8⟩ := NeptuneParams.ext_of_new h
  refine ⟨parityMatrix A B, hm.m_e_eq, fun i j hij => ?_, fun x => ?_⟩
  · unfold parityMatrix; rw [if_pos hij]
  · exact Neptune.externalMatmul_ofFn P hm.t_eq A B hm.m_e_eq h4 h8 x

/-- **C22**, width 4: the stored matrix, written out; over a field in which 2 is not 0 its zeros are exactly the
positions of mixed parity. -/
theorem C22_width_4 {d rounds_f rounds_p : Nat} {s r : List F} {P : NeptuneParams F}
    (h : NeptuneParams.new dbg 4 d rounds_f rounds_p s = some (P, r)) :
    P.m_e = [[2, 0, 1, 0], [0, 1, 0, 2], [1, 0, 2, 0], [0, 2, 0, 1]] ∧
    ((2 : F) ≠ 0 → ∀ i j : Fin 4, tab P.m_e i j = 0 ↔ i.val % 2 ≠ j.val % 2) := by
  obtain ⟨A, B, hm, h4, -⟩ := NeptuneParams.ext_of_new (k := 2) h
  have h1 : P.m_e = [[2, 0, 1, 0], [0, 1, 0, 2], [1, 0, 2, 0], [0, 2, 0, 1]] := by
    rw [h4 rfl]; simp [rowsOf, neptuneExt4, parityMatrix, List.ofFn_succ]
  refine ⟨h1, fun h2 i j => ?_⟩
  rw [h1]
  fin_cases i <;> fin_cases j <;> simp [tab, h2]

/-- **C22**, width 8: the same. -/
theorem C22_width_8 {d rounds_f rounds_p : Nat} {s r : List F} {P : NeptuneParams F}
    (h : NeptuneParams.new dbg 8 d rounds_f rounds_p s = some (P, r)) :
    P.m_e = [[3, 0, 2, 0, 1, 0, 1, 0], [0, 1, 0, 1, 0, 2, 0, 3], [1, 0, 3, 0, 2, 0, 1, 0], [0, 3, 0, 1, 0, 1, 0, 2],
      [1, 0, 1, 0, 3, 0, 2, 0], [0, 2, 0, 3, 0, 1, 0, 1], [2, 0, 1, 0, 1, 0, 3, 0], [0, 1, 0, 2, 0, 3, 0, 1]] ∧
    ((2 : F) ≠ 0 → (3 : F) ≠ 0 → ∀ i j : Fin 8, tab P.m_e i j = 0 ↔ i.val % 2 ≠ j.val % 2) := by
  obtain ⟨A, B, hm, -, h8⟩ := NeptuneParams.ext_of_new (k := 4) h
  have h1 : P.m_e = [[3, 0, 2, 0, 1, 0, 1, 0], [0, 1, 0, 1, 0, 2, 0, 3], [1, 0, 3, 0, 2, 0, 1, 0],
      [0, 3, 0, 1, 0, 1, 0, 2], [1, 0, 1, 0, 3, 0, 2, 0], [0, 2, 0, 3, 0, 1, 0, 1], [2, 0, 1, 0, 1, 0, 3, 0],
      [0, 1, 0, 2, 0, 3, 0, 1]] := by
    rw [h8 rfl]; simp [rowsOf, neptuneExt8, parityMatrix, List.ofFn_succ]
  refine ⟨h1, fun h2 h3 i j => ?_⟩
  rw [h1]
  fin_cases i <;> fin_cases j <;> simp [tab, h2, h3]

/-- **C23.** For constructed parameters of width `t ≥ 1` the internal layer is multiplication by the matrix with ones
off the diagonal and `mu_i + 1 ≠ 0` on it. -/
theorem C23_internal_layer {t d rounds_f rounds_p : Nat} (ht : 0 < t) {s r : List F} {P : NeptuneParams F}
    (h : NeptuneParams.new dbg t d rounds_f rounds_p s = some (P, r)) :
    P.mu.length = t ∧ (∀ i : Fin t, vec P.mu i + 1 ≠ 0) ∧
    ∀ x : Fin t → F, Neptune.internalMatmul P (List.ofFn x) =
      some (List.ofFn ((fun i j => if i = j then vec P.mu i + 1 else 1 : Matrix (Fin t) (Fin t) F) *ᵥ x)) := by
  obtain ⟨k, rfl⟩ : ∃ k, t = 2 * k := ⟨t / 2, by have := NeptuneParams.new_even h; omega⟩
  obtain ⟨A, B, hm, -, -⟩ := NeptuneParams.ext_of_new h
  refine ⟨hm.mu_len, fun i => ?_, fun x => ?_⟩
  · have hi : i.val < P.mu.length := by rw [hm.mu_len]; exact i.isLt
    have : vec P.mu i = P.mu[i.val] := by simp [vec, List.getD, hi]
    rw [this]
    exact hm.mu_ne _ (List.getElem_mem hi)
  · exact Neptune.internalMatmul_ofFn ht P hm.mu_len x

/-- **C23**, where the diagonal comes from: `mu_i + 1` are the first `t` nonzero elements delivered by the generator
at that point. -/
theorem C23_mu_draws (t : Nat) {s r mu : List F} (h : NeptuneParams.instantiateMu t s = some (mu, r)) :
    s.filter (· ≠ 0) = mu.map (· + 1) ++ r.filter (· ≠ 0) ∧ mu.length = t := by
  unfold NeptuneParams.instantiateMu at h
  induction t generalizing s r mu with
  | zero =>
    obtain ⟨rfl, rfl⟩ := pure_some.mp h
    exact ⟨rfl, rfl⟩
  | succ t ih =>
    unfold repeatDraw at h
    obtain ⟨a, s1, h1, h⟩ := bind_some.mp h
    obtain ⟨l, s2, h2, h⟩ := bind_some.mp h
    obtain ⟨rfl, rfl⟩ := pure_some.mp h
    obtain ⟨b, s3, h3, h4⟩ := bind_some.mp h1
    obtain ⟨rfl, rfl⟩ := pure_some.mp h4
    obtain ⟨e1, e2⟩ := ih h2
    refine ⟨?_, by simp [e2]⟩
    rw [NeptuneParams.without0_filter h3, e1]
    simp

/-- **C24.** The two-branch S-box of the external rounds is a bijection on pairs exactly when 5 is not 0 in the field,
whatever `gamma`. -/
theorem C24_sbox_bijective_iff (γ : F) :
    Bijective (fun p : F × F => Neptune.externalSboxPrime γ p.1 p.2) ↔ (5 : F) ≠ 0 := by
  simp only [Neptune.sboxPrime_eq, Prod.mk.eta]
  exact Neptune.neptunePair_bijective_iff γ

/-- **C24**, on whole states: the S-box layer of a state of width `2k ≥ 2` is a bijection under the same condition. -/
theorem C24_layer_bijective_iff {k : Nat} (hk : 0 < k) (γ : F) :
    IsPermutation (2 * k) (Neptune.externalSbox γ) ↔ (5 : F) ≠ 0 := by
  rw [isPermutation_iff (Neptune.externalSbox_ofFn γ), Neptune.onPairs_bijective_iff hk,
    Neptune.neptunePair_bijective_iff]

/-! ## The permutation -/

/-- **C25.** For constructed parameters of width `2k ≥ 2` the permutation is the Neptune specification, with the stored
matrix, the stored diagonal, the stored `gamma` and the stored constants. -/
theorem C25_permutation_eq_spec {k d rounds_f rounds_p : Nat} (hk : 0 < k) {s r : List F} {P : NeptuneParams F}
    (h : NeptuneParams.new dbg (2 * k) d rounds_f rounds_p s = some (P, r)) (hfit : rounds_f + rounds_p < 2 ^ 64) :
    ∃ M : Matrix (Fin (2 * k)) (Fin (2 * k)) F, P.m_e = rowsOf M ∧ ∀ x : Fin (2 * k) → F,
      Neptune.permutation dbg P (List.ofFn x) = some (List.ofFn (neptune M (neptuneInternal (2 * k) (vec P.mu)) d
        P.abc.2.2 (rounds_f / 2) rounds_p (tab P.round_constants) x)) := by
  obtain ⟨A, B, hm, h4, h8⟩ := NeptuneParams.ext_of_new h
  exact ⟨_, hm.m_e_eq, fun x => Neptune.permutation_ofFn hk hm h4 h8 hfit x⟩

/-- **C25**, totality: no panic on any state of width `t ≥ 1`, and the width is kept. -/
theorem C25_total {t d rounds_f rounds_p : Nat} (ht : 0 < t) {s r : List F} {P : NeptuneParams F}
    (h : NeptuneParams.new dbg t d rounds_f rounds_p s = some (P, r))
    (hfit : rounds_f + rounds_p < 2 ^ 64) (x : List F) (hx : x.length = t) :
    ∃ y, Neptune.permutation dbg P x = some y ∧ y.length = t := by
  obtain ⟨k, rfl⟩ : ∃ k, t = 2 * k := ⟨t / 2, by have := NeptuneParams.new_even h; omega⟩
  obtain ⟨M, -, hM⟩ := C25_permutation_eq_spec (by omega) h hfit
  obtain ⟨x, rfl⟩ := eq_ofFn x hx
  exact ⟨_, hM x, by simp⟩

/-- **C25**, guard: any other length panics, for any parameter value. -/
theorem C25_wrong_length (P : NeptuneParams F) (x : List F) (hx : x.length ≠ P.t) :
    Neptune.permutation dbg P x = none := by
  simp [Neptune.permutation, assertThat, hx]

/-- **C25**, constructor guards: it panics on any degree other than 3, 5, 7, on an odd number of external rounds and on
an odd width, and in a debug build on a number of rounds that does not fit a `usize`, whatever the generator
delivers. -/
theorem C25_new_panics (t d rounds_f rounds_p : Nat) (s : List F)
    (h : (d ≠ 3 ∧ d ≠ 5 ∧ d ≠ 7) ∨ rounds_f % 2 = 1 ∨ t % 2 = 1 ∨ (dbg = true ∧ 2 ^ 64 ≤ rounds_f + rounds_p)) :
    NeptuneParams.new dbg t d rounds_f rounds_p s = none := by
  cases hn : NeptuneParams.new dbg t d rounds_f rounds_p s with
  | none => rfl
  | some p =>
    exfalso
    obtain ⟨P, r⟩ := p
    have ht := NeptuneParams.new_even hn
    obtain ⟨k, rfl⟩ : ∃ k, t = 2 * k := ⟨t / 2, by omega⟩
    obtain ⟨A, B, hm, -, -⟩ := NeptuneParams.ext_of_new hn
    have h1 := hm.degree
    have h2 := hm.even
    have h3 := NeptuneParams.new_fits hn
    rcases h with h | h | h | ⟨h, h'⟩
    · omega
    · omega
    · omega
    · have := h3 h
      omega

/-! ## Bijectivity -/

/-- **C26**, every even width: the exact criterion. -/
theorem C26_bijective_iff [Fintype F] {t d rounds_f rounds_p : Nat} (ht : 0 < t) {s r : List F} {P : NeptuneParams F}
    (h : NeptuneParams.new dbg t d rounds_f rounds_p s = some (P, r)) (hfit : rounds_f + rounds_p < 2 ^ 64) :
    ∃ M : Matrix (Fin t) (Fin t) F, P.m_e = rowsOf M ∧
      (IsPermutation t (Neptune.permutation dbg P) ↔
        M.det ≠ 0 ∧ (rounds_f = 0 ∨ (5 : F) ≠ 0) ∧
        (rounds_p = 0 ∨ ((neptuneInternal t (vec P.mu)).det ≠ 0 ∧ Nat.Coprime d (Fintype.card F - 1)))) := by
  obtain ⟨k, rfl⟩ : ∃ k, t = 2 * k := ⟨t / 2, by have := NeptuneParams.new_even h; omega⟩
  obtain ⟨A, B, hm, h4, h8⟩ := NeptuneParams.ext_of_new h
  have hd := hm.degree
  refine ⟨_, hm.m_e_eq, ?_⟩
  rw [isPermutation_iff (Neptune.permutation_ofFn (by omega) hm h4 h8 hfit),
    Neptune.neptune_bijective_iff (by omega) _ _ (by omega)]
  have heven := hm.even
  have : rounds_f / 2 = 0 ↔ rounds_f = 0 := by omega
  rw [this]

/-- **C26.** For widths 4 and 8 over a finite field of characteristic other than 3, 5 and 7, the permutation is a
bijection exactly when there is no internal round, or the S-box exponent is coprime to `q - 1` and the drawn internal
matrix is invertible. -/
theorem C26_bijective_4_8 [Fintype F] {t d rounds_f rounds_p : Nat} (ht : t = 4 ∨ t = 8) {s r : List F}
    {P : NeptuneParams F} (h : NeptuneParams.new dbg t d rounds_f rounds_p s = some (P, r))
    (hfit : rounds_f + rounds_p < 2 ^ 64)
    (h3 : (3 : F) ≠ 0) (h5 : (5 : F) ≠ 0) (h7 : (7 : F) ≠ 0) :
    IsPermutation t (Neptune.permutation dbg P) ↔
      rounds_p = 0 ∨ (Nat.Coprime d (Fintype.card F - 1) ∧ (neptuneInternal t (vec P.mu)).det ≠ 0) := by
  have key : ∀ M : Matrix (Fin t) (Fin t) F, P.m_e = rowsOf M → M.det ≠ 0 := by
    rcases ht with rfl | rfl
    · obtain ⟨A, B, hm, h4, -⟩ := NeptuneParams.ext_of_new (k := 2) h
      intro M hM
      have : M = neptuneExt4 := by
        have := hM.symm.trans (h4 rfl)
        ext i j
        exact congrFun (List.ofFn_injective (congrFun (List.ofFn_injective this) i)) j
      have hdet : M.det = -9 := by rw [this]; exact Neptune.ext4_det
      rw [hdet, show (-9 : F) = -(3 * 3) by norm_num]
      exact neg_ne_zero.mpr (mul_ne_zero h3 h3)
    · obtain ⟨A, B, hm, -, h8⟩ := NeptuneParams.ext_of_new (k := 4) h
      intro M hM
      have : M = neptuneExt8 := by
        have := hM.symm.trans (h8 rfl)
        ext i j
        exact congrFun (List.ofFn_injective (congrFun (List.ofFn_injective this) i)) j
      have hdet : M.det = -1225 := by rw [this]; exact Neptune.ext8_det
      rw [hdet, show (-1225 : F) = -(5 * 5 * (7 * 7)) by norm_num]
      exact neg_ne_zero.mpr (mul_ne_zero (mul_ne_zero h5 h5) (mul_ne_zero h7 h7))
  obtain ⟨M, hM, hiff⟩ := C26_bijective_iff (by omega) h hfit
  rw [hiff]
  constructor
  · rintro ⟨-, -, h⟩; exact h.imp_right And.symm
  · intro h'; exact ⟨key M hM, Or.inr h5, h'.imp_right And.symm⟩

theorem NeptuneParams.mu_ones (t m : Nat) :
    NeptuneParams.instantiateMu t (List.replicate (t * 1 + m) (1 : F)) =
      some (List.replicate t 0, List.replicate m 1) := by
  unfold NeptuneParams.instantiateMu
  apply repeatDraw_replicate
  intro m
  rw [Nat.add_comm, List.replicate_succ]
  have : randomScalarWithout0 ((1 : F) :: List.replicate m 1) = some (1, List.replicate m 1) := by
    unfold randomScalarWithout0; rw [if_neg one_ne_zero]
  rw [bind_eq this]
  show some ((1 : F) - 1, _) = _
  rw [sub_self]

/-- The constructor accepts a generator that delivers ones only (width 4 and 8). -/
theorem NeptuneParams.new_ones {t d rounds_f rounds_p n : Nat} (ht : t = 4 ∨ t = 8) (hd : d = 3 ∨ d = 5 ∨ d = 7)
    (heven : rounds_f % 2 = 0) (hn : uadd dbg rounds_f rounds_p = some n) :
    ∃ P : NeptuneParams F, NeptuneParams.new dbg t d rounds_f rounds_p
      (List.replicate (n * t + (t * 1 + (1 + 0))) 1) = some (P, []) ∧ P.mu = List.replicate t 0 := by
  unfold NeptuneParams.new
  have a1 : assertThat (d == 3 || d == 5 || d == 7) = some () := by
    unfold assertThat; rcases hd with rfl | rfl | rfl <;> rfl
  have a2 : assertThat (rounds_f % 2 == 0) = some () := by simp [assertThat, heven]
  have a3 : assertThat (t % 2 == 0) = some () := by
    unfold assertThat; rcases ht with rfl | rfl <;> rfl
  rw [bind_eq (lift_some.mpr ⟨a1, rfl⟩), bind_eq (lift_some.mpr ⟨a2, rfl⟩), bind_eq (lift_some.mpr ⟨a3, rfl⟩),
    bind_eq (lift_some.mpr ⟨hn, rfl⟩)]
  have e1 : repeatDraw (repeatDraw randomScalar t) n
      (List.replicate (n * t + (t * 1 + (1 + 0))) (1 : F)) =
      some (List.replicate n (List.replicate t 1), List.replicate (t * 1 + (1 + 0)) 1) := by
    apply repeatDraw_replicate
    intro m
    have := repeatDraw_replicate (f := (randomScalar : Draw F F)) (randomScalar_replicate (1 : F)) t m
    rwa [Nat.mul_one] at this
  rw [bind_eq e1]
  have e2 : ∃ m_e, instantiateExternalMatrix t (List.replicate (t * 1 + (1 + 0)) (1 : F)) =
      some (m_e, List.replicate (t * 1 + (1 + 0)) 1) := by
    rcases ht with rfl | rfl
    · exact ⟨_, external_four _⟩
    · exact ⟨_, external_eight _⟩
  obtain ⟨m_e, e2⟩ := e2
  rw [bind_eq e2, bind_eq (mu_ones t (1 + 0)), bind_eq (randomScalar_replicate 1 0)]
  exact ⟨_, rfl, rfl⟩

/-- **C26**, construction does not ensure bijectivity: over every finite field, for widths 4 and 8, every accepted
degree and even `rounds_f`, and at least one internal round, some draws are accepted by the constructor although the
resulting permutation is not a bijection - two different states of width `t` have the same image. -/
theorem C26_bad_draws [Fintype F] {t d rounds_f rounds_p : Nat} (ht : t = 4 ∨ t = 8) (hd : d = 3 ∨ d = 5 ∨ d = 7)
    (heven : rounds_f % 2 = 0) (hp : 1 ≤ rounds_p) (hfit : rounds_f + rounds_p < 2 ^ 64) :
    ∃ (s : List F) (P : NeptuneParams F), NeptuneParams.new dbg t d rounds_f rounds_p s = some (P, []) ∧
      (neptuneInternal t (vec P.mu)).det = 0 ∧
      ∃ x y : List F, x.length = t ∧ y.length = t ∧ x ≠ y ∧ Neptune.permutation dbg P x = Neptune.permutation dbg P y := by
  obtain ⟨P, hP, hmu⟩ := NeptuneParams.new_ones (F := F) (dbg := dbg) (rounds_p := rounds_p) ht hd heven
    (uadd_fits dbg hfit)
  have hdet : (neptuneInternal t (vec P.mu)).det = 0 := by
    have ht2 : 2 ≤ t := by omega
    have h0 : ∀ i : Fin t, vec P.mu i = 0 := fun i => by simp [hmu, vec, List.getD]
    have hM : neptuneInternal t (vec P.mu) = fun _ _ => (1 : F) := by
      funext i j
      unfold neptuneInternal
      simp [h0]
    rw [hM]
    exact Matrix.det_zero_of_row_eq (i := ⟨0, by omega⟩) (j := ⟨1, by omega⟩)
      (fun h => by simpa using congrArg Fin.val h) rfl
  refine ⟨_, P, hP, hdet, ?_⟩
  have ht2 : 0 < t := by omega
  obtain ⟨M, -, hiff⟩ := C26_bijective_iff ht2 hP hfit
  have hnot : ¬ IsPermutation t (Neptune.permutation dbg P) := by
    rw [hiff]
    rintro ⟨-, -, h⟩
    rcases h with h | h
    · omega
    · exact h.1 hdet
  obtain ⟨k, rfl⟩ : ∃ k, t = 2 * k := ⟨t / 2, by have := NeptuneParams.new_even hP; omega⟩
  obtain ⟨M, -, hM⟩ := C25_permutation_eq_spec (by omega) hP hfit
  rw [isPermutation_iff hM, ← Finite.injective_iff_bijective] at hnot
  unfold Injective at hnot
  push Not at hnot
  obtain ⟨x, y, hxy, hne⟩ := hnot
  exact ⟨List.ofFn x, List.ofFn y, by simp, by simp, fun h => hne (List.ofFn_injective h), by rw [hM, hM, hxy]⟩

end

/-! ## The hypotheses are met by concrete parameters -/

section examples

private instance : Fact (Nat.Prime 11) := ⟨by decide⟩
private instance : Fact (Nat.Prime 13) := ⟨by decide⟩

/-- Witness for C22, C23, C25 and C26: width 4, one external round on each side, one internal round, over the field
with 11 elements; the zero the generator delivers first for `mu` is skipped. -/
def exStream4 : List (ZMod 11) :=
  [1, 2, 3, 4, 5, 6, 7, 8, 9, 10, 1, 2] ++ [0, 2, 3, 4, 5] ++ [6]

example : ∃ P, NeptuneParams.new dbg 4 3 2 1 exStream4 = some (P, []) ∧ P.mu = [1, 2, 3, 4] ∧ P.abc.2.2 = 6 ∧
    Neptune.permutation dbg P [1, 2, 3, 4] ≠ Neptune.permutation dbg P [1, 2, 3, 5] :=
  ⟨_, rfl, by decide, by decide, by cases dbg <;> decide +kernel⟩

/-- Width 2, where the blocks are drawn at random too. -/
def exStream2 : List (ZMod 11) := [1, 2, 3, 4, 5, 6] ++ [7, 8] ++ [4, 5] ++ [9]

example : ∃ P, NeptuneParams.new dbg 2 5 2 1 exStream2 = some (P, []) ∧ P.m_e = [[7, 0], [0, 8]] := ⟨_, rfl, by decide⟩

/-- The criterion of C26 holds for the first example: `gcd(3, 10) = 1` and the internal matrix is invertible. -/
example : Nat.Coprime 3 (Fintype.card (ZMod 11) - 1) ∧
    (neptuneInternal 4 (vec [1, 2, 3, 4]) : Matrix (Fin 4) (Fin 4) (ZMod 11)).det ≠ 0 := by
  refine ⟨by decide, ?_⟩
  simp [Matrix.det_succ_row_zero, Fin.sum_univ_succ, neptuneInternal, vec, Fin.succAbove]
  decide

end examples

end ZkHash
