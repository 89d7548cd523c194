import Verif.Proofs.Poseidon2Panic
import Verif.Proofs.Bijective
import Mathlib.Data.ZMod.Basic
import Mathlib.Algebra.Field.ZMod

set_option autoImplicit false

/-!
# Properties of the Poseidon2 permutation (C01-C07)
-/

namespace ZkHash

open Spec Matrix

set_option linter.unusedSectionVars false

section
variable {F : Type _} [CommRing F] {dbg : Bool}

/-- **C01.** The permutation built from well-shaped arguments returns exactly the Poseidon2 specification, on every
state. -/
theorem C01_permutation_eq_spec {t d rounds_f rounds_p : Nat} {diag : List F} {mat_internal rc : List (List F)}
    {P : Poseidon2Params F} (hP : Poseidon2Params.new dbg t d rounds_f rounds_p diag mat_internal rc = some P)
    (hs : WellShaped t d rounds_f rounds_p diag rc) (x : Fin t → F) :
    Poseidon2.permutation dbg P (List.ofFn x) =
      some (List.ofFn (poseidon2 (externalMatrix t) (internalMatrix t (vec diag)) d (rounds_f / 2) rounds_p
        (tab rc) x)) :=
  Poseidon2.permutation_ofFn hP hs x

/-- **C03.** No panic, and the width is kept. -/
theorem C03_permutation_total {t d rounds_f rounds_p : Nat} {diag : List F} {mat_internal rc : List (List F)}
    (hs : WellShaped t d rounds_f rounds_p diag rc) (heven : rounds_f % 2 = 0) :
    ∃ P, Poseidon2Params.new dbg t d rounds_f rounds_p diag mat_internal rc = some P ∧
      ∀ x : List F, x.length = t → ∃ y, Poseidon2.permutation dbg P x = some y ∧ y.length = t := by
  have hP : ∃ P, Poseidon2Params.new dbg t d rounds_f rounds_p diag mat_internal rc = some P := by
    have hd := hs.degree
    rcases hd with rfl | rfl | rfl <;> simp [Poseidon2Params.new, assertThat, heven, uadd_fits dbg hs.fits]
  obtain ⟨P, hP⟩ := hP
  refine ⟨P, hP, fun x hx => ?_⟩
  obtain ⟨x, rfl⟩ := eq_ofFn x hx
  exact ⟨_, Poseidon2.permutation_ofFn hP hs x, by simp⟩

/-- **C04.** Wrong input length and unsupported widths panic, for any parameter value whatsoever. -/
theorem C04_permutation_guards (P : Poseidon2Params F) (x : List F)
    (h : x.length ≠ P.t ∨ ¬Supported P.t) : Poseidon2.permutation dbg P x = none := by
  unfold Poseidon2.permutation
  by_cases hx : x.length = P.t
  · have h := h.resolve_left (by simpa using hx)
    simp [assertThat, hx, Poseidon2.matmulExternal_unsupported h]
  · simp [assertThat, hx]

/-- **C05**, constructor: it panics exactly when `d` is not 3, 5, 7 or 11, `rounds_f` is odd, or, in a debug build,
the number of rounds does not fit a `usize`. -/
theorem C05_new_panics_iff (dbg : Bool) (t d rounds_f rounds_p : Nat) (diag : List F) (mat_internal rc : List (List F)) :
    Poseidon2Params.new dbg t d rounds_f rounds_p diag mat_internal rc = none ↔
      (d ≠ 3 ∧ d ≠ 5 ∧ d ≠ 7 ∧ d ≠ 11) ∨ rounds_f % 2 = 1 ∨
        (dbg = true ∧ 2 ^ 64 ≤ rounds_f + rounds_p) := by
  unfold Poseidon2Params.new assertThat
  by_cases h1 : (d == 3 || d == 5 || d == 7 || d == 11) = true
  · by_cases h2 : (rounds_f % 2 == 0) = true
    · simp only [h1, h2, if_true, Option.bind_eq_bind, Option.bind_some, Option.pure_def]
      simp only [Bool.or_eq_true, beq_iff_eq] at h1 h2
      cases ha : uadd dbg rounds_f rounds_p with
      | none => exact ⟨fun _ => Or.inr (Or.inr (uadd_none ha)), fun _ => rfl⟩
      | some n =>
        simp only [Option.bind_some, reduceCtorEq, false_iff]
        rintro (h | h | ⟨hd, h⟩)
        · omega
        · omega
        · rw [hd, uadd_debug h] at ha
          cases ha
    · simp only [h1, h2, if_true, Option.bind_eq_bind, Option.bind_some]
      simp only [beq_iff_eq] at h2
      have : rounds_f % 2 = 1 := by omega
      simp [this]
  · simp only [h1, Bool.false_eq_true, if_false, Option.bind_eq_bind, Option.bind_none, true_iff]
    simp only [Bool.or_eq_true, beq_iff_eq] at h1
    omega

/-- **C05**, degree 11: the constructor succeeds but every call of the permutation panics as soon as there is a
round. -/
theorem C05_degree_11_unusable {t rounds_f rounds_p : Nat} (diag : List F) (mat_internal rc : List (List F))
    (heven : rounds_f % 2 = 0) (hr : 1 ≤ rounds_f + rounds_p) (hfit : rounds_f + rounds_p < 2 ^ 64) :
    ∃ P, Poseidon2Params.new dbg t 11 rounds_f rounds_p diag mat_internal rc = some P ∧
      ∀ x : List F, Poseidon2.permutation dbg P x = none := by
  refine ⟨⟨t, 11, rounds_f / 2, rounds_p, rounds_f / 2, rounds_f + rounds_p, diag, mat_internal, rc⟩,
    by simp [Poseidon2Params.new, assertThat, heven, uadd_fits dbg hfit], fun x => ?_⟩
  have hfit' : rounds_f / 2 + rounds_p < 2 ^ 64 := by omega
  by_cases hf : 1 ≤ rounds_f
  · exact Poseidon2.permutation_none_of_full (r := 0) hfit' (Or.inl (show 0 < rounds_f / 2 by omega))
      (fun s _ => Poseidon2.fullRound_degree (by simp) s 0) x
  · exact Poseidon2.permutation_none_of_partial (r := rounds_f / 2) hfit'
      ⟨le_refl _, show rounds_f / 2 < rounds_f / 2 + rounds_p by omega⟩
      (fun s _ => Poseidon2.partialRound_degree (by simp) s _) x

/-- **C06.** Non-interference: the result (value or panic) on any input is determined by `t`, `d`, the round numbers,
the full-round constants, the first entry of each partial-round row and, for `t ≥ 4`, the first `t` diagonal
entries. -/
theorem C06_noninterference (P Q : Poseidon2Params F) (hfit : P.rounds_f_beginning + P.rounds_p < 2 ^ 64)
    (ht : P.t = Q.t) (hd : P.d = Q.d) (hb : P.rounds_f_beginning = Q.rounds_f_beginning)
    (hp : P.rounds_p = Q.rounds_p) (hr : P.rounds = Q.rounds)
    (hfull : ∀ r, r < P.rounds_f_beginning ∨ (P.rounds_f_beginning + P.rounds_p ≤ r ∧ r < P.rounds) →
      (P.round_constants[r]?).map (·.take P.t) = (Q.round_constants[r]?).map (·.take P.t))
    (hpart : ∀ r, P.rounds_f_beginning ≤ r → r < P.rounds_f_beginning + P.rounds_p →
      (P.round_constants[r]?).bind (·[0]?) = (Q.round_constants[r]?).bind (·[0]?))
    (hdiag : 4 ≤ P.t → ∀ i < P.t, P.mat_internal_diag_m_1[i]? = Q.mat_internal_diag_m_1[i]?)
    (x : List F) : Poseidon2.permutation dbg P x = Poseidon2.permutation dbg Q x :=
  Poseidon2.permutation_congr dbg P Q hfit ht hd hb hp hr hfull hpart hdiag x

/-- **C07.** If a full-round row that is used has fewer than `t` entries (or is missing), or a partial-round row is
empty or missing, every call panics; the state is never silently shortened. -/
theorem C07_short_rows_panic (P : Poseidon2Params F) (r : Nat) (hfit : P.rounds_f_beginning + P.rounds_p < 2 ^ 64)
    (h : ((r < P.rounds_f_beginning ∨ (P.rounds_f_beginning + P.rounds_p ≤ r ∧ r < P.rounds)) ∧
          (P.round_constants.getD r []).length < P.t) ∨
         ((P.rounds_f_beginning ≤ r ∧ r < P.rounds_f_beginning + P.rounds_p) ∧
          P.round_constants.getD r [] = []))
    (x : List F) : Poseidon2.permutation dbg P x = none := by
  rcases h with ⟨hr, hlen⟩ | ⟨hr, hemp⟩
  · exact Poseidon2.permutation_none_of_full hfit hr (fun s _ => Poseidon2.fullRound_short hlen) x
  · refine Poseidon2.permutation_none_of_partial hfit hr (fun s _ => ?_) x
    have : get2 P.round_constants r 0 = none := by
      unfold get2
      cases hrc : P.round_constants[r]? with
      | none => rfl
      | some row =>
        rw [List.getD_eq_getElem?_getD, hrc] at hemp
        simp at hemp
        simp [hemp]
    simp [Poseidon2.partialRound, this]

/-- **C07**, conversely: every result has width `t`. -/
theorem C07_result_width (P : Poseidon2Params F) (x y : List F) (h : Poseidon2.permutation dbg P x = some y) :
    x.length = P.t ∧ y.length = P.t := by
  refine ⟨?_, Poseidon2.permutation_length h⟩
  by_contra hx
  rw [C04_permutation_guards P x (Or.inl hx)] at h
  cases h

end

section
variable {F : Type _} [Field F] [Fintype F] {dbg : Bool}

/-- **C02.** Over a finite field the permutation is a bijection of the states of width `t` exactly when the external
matrix is invertible, the internal matrix is invertible or unused, and the S-box is a bijection or unused. -/
theorem C02_permutation_bijective_iff {t d rounds_f rounds_p : Nat} {diag : List F} {mat_internal rc : List (List F)}
    {P : Poseidon2Params F} (hP : Poseidon2Params.new dbg t d rounds_f rounds_p diag mat_internal rc = some P)
    (hs : WellShaped t d rounds_f rounds_p diag rc) :
    IsPermutation t (Poseidon2.permutation dbg P) ↔
      (externalMatrix t : Matrix (Fin t) (Fin t) F).det ≠ 0 ∧
      (rounds_p = 0 ∨ (internalMatrix t (vec diag)).det ≠ 0) ∧
      (rounds_f + rounds_p = 0 ∨ Nat.Coprime d (Fintype.card F - 1)) := by
  have heven : rounds_f % 2 = 0 := by
    by_contra h
    rw [(C05_new_panics_iff dbg t d rounds_f rounds_p diag mat_internal rc).mpr (Or.inr (Or.inl (by omega)))] at hP
    cases hP
  rw [isPermutation_iff (Poseidon2.permutation_ofFn hP hs),
    poseidon2_bijective_iff (by have := hs.width; unfold Supported at this; omega) _ _
      (by have := hs.degree; omega)]
  have : rounds_f / 2 + rounds_p = 0 ↔ rounds_f + rounds_p = 0 := by omega
  rw [this]

end

/-! ## The hypotheses are met by concrete parameters -/

section examples

variable {dbg : Bool}

instance : Fact (Nat.Prime 11) := ⟨by decide⟩

/-- A small parameter set: `t = 4`, `d = 3`, two full rounds, one partial round, over the field with 11 elements. -/
def exDiag : List (ZMod 11) := [1, 2, 3, 4]
/-- Its constants. -/
def exRc : List (List (ZMod 11)) := [[1, 2, 3, 4], [5, 0, 0, 0], [6, 7, 8, 9]]

theorem ex_wellShaped : WellShaped 4 3 2 1 exDiag exRc where
  width := by unfold Supported; omega
  degree := by omega
  diag_len := by intro _; decide
  rc_len := by decide
  rc_rows := by decide
  fits := by norm_num

/-- Witness for C01, C02 and C03. -/
example : ∃ P, Poseidon2Params.new dbg 4 3 2 1 exDiag [] exRc = some P ∧ WellShaped 4 3 2 1 exDiag exRc :=
  ⟨_, rfl, ex_wellShaped⟩

/-- C02 is not vacuous in either direction: with these parameters `gcd(3, 10) = 1`; the criterion can be evaluated. -/
example : Nat.Coprime 3 (Fintype.card (ZMod 11) - 1) := by decide

/-- Witness for C04: a parameter value of unsupported width, and a wrong length. -/
example : ¬Supported 5 := by unfold Supported; omega

/-- Witness for C07: a short row in round 0. -/
example : ∃ P, Poseidon2Params.new dbg 4 3 2 1 exDiag [] [[1, 2, 3], [5], [6, 7, 8, 9]] = some P ∧
    (P.round_constants.getD 0 []).length < P.t ∧ 0 < P.rounds_f_beginning :=
  ⟨_, rfl, by decide, by decide⟩

/-- Witness for C06: different stored matrices and different tails. -/
example : ∃ P Q, Poseidon2Params.new dbg 4 3 2 1 exDiag [] exRc = some P ∧
    Poseidon2Params.new dbg 4 3 2 1 exDiag [[1]] [[1, 2, 3, 4], [5, 9, 9], [6, 7, 8, 9]] = some Q ∧
    ∀ x, Poseidon2.permutation dbg P x = Poseidon2.permutation dbg Q x := by
  refine ⟨_, _, rfl, rfl, fun x => ?_⟩
  apply C06_noninterference
  · norm_num
  · rfl
  · rfl
  · rfl
  · rfl
  · rfl
  · intro r hr
    rcases r with _ | _ | _ | r
    · rfl
    · simp at hr
    · rfl
    · rfl
  · intro r h1 h2
    have : r = 1 := by simp at h1 h2; omega
    subst this; rfl
  · intro _ _ _; rfl

end examples

end ZkHash
