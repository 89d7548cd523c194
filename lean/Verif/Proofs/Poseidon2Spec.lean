import Verif.Proofs.Poseidon2Layers

set_option autoImplicit false

/-!
# The Poseidon2 permutation equals its specification
-/

namespace ZkHash

open Spec Matrix

/-- A loop of rounds, each of which is a total function on vectors. -/
theorem rounds_loop {α S : Type _} (enc : S → α) (f : α → Nat → Option α) (g : Nat → S → S) (a n : Nat)
    (h : ∀ r, a ≤ r → r < a + n → ∀ x, f (enc x) r = some (enc (g r x))) (x : S) :
    (List.range' a n).foldlM f (enc x) = some (enc (rounds g a n x)) :=
  foldlM_range' f a n (fun k => enc (rounds g a k x)) fun i hi => by
    rw [h (a + i) (by omega) (by omega)]; rfl

namespace Poseidon2

variable {F : Type _} [CommRing F]

theorem sum_range_four (k : Nat) (f : Nat → F) :
    ∑ j ∈ Finset.range (4 * k), f j =
      ∑ b ∈ Finset.range k, (f (4 * b) + f (4 * b + 1) + f (4 * b + 2) + f (4 * b + 3)) := by
  induction k with
  | zero => simp
  | succ k ih =>
    rw [show 4 * (k + 1) = 4 * k + 1 + 1 + 1 + 1 by ring, Finset.sum_range_succ, Finset.sum_range_succ,
      Finset.sum_range_succ, Finset.sum_range_succ, ih, Finset.sum_range_succ _ k]
    ring

theorem M4_apply (r : Nat) (hr : r < 4) (x : Nat → F) (b : Nat) :
    m4row x (4 * b + r) =
      (M4 ⟨r, hr⟩ 0 : F) * x (4 * b) + (M4 ⟨r, hr⟩ 1 : F) * x (4 * b + 1) +
        (M4 ⟨r, hr⟩ 2 : F) * x (4 * b + 2) + (M4 ⟨r, hr⟩ 3 : F) * x (4 * b + 3) := by
  have h1 : (4 * b + r) / 4 * 4 = 4 * b := by omega
  have h2 : (4 * b + r) % 4 = r := by omega
  unfold m4row
  rw [h1, h2]
  interval_cases r <;> simp [M4, Matrix.of_apply]

theorem mulVec_range {t : Nat} (M : Matrix (Fin t) (Fin t) F) (A : Nat → Nat → F)
    (hA : ∀ i j : Fin t, M i j = A i j) (x : Nat → F) (i : Fin t) :
    (M *ᵥ fun j : Fin t => x j) i = ∑ j ∈ Finset.range t, A i j * x j := by
  rw [Finset.sum_range]
  simp [Matrix.mulVec, dotProduct, hA]

theorem extFn_eq {t : Nat} (h : Supported t) (x : Nat → F) (i : Fin t) :
    extFn t x i = (externalMatrix t *ᵥ fun j : Fin t => x j) i := by
  by_cases h4 : t < 4
  · rw [mulVec_range _ (fun i j => if i = j then 2 else 1)
      (by intro i j; simp [externalMatrix, h4, Fin.ext_iff])]
    unfold extFn
    rw [if_pos h4]
    have : ∀ j, (if i.val = j then (2 : F) else 1) * x j = x j + (if j = i.val then x j else 0) := by
      intro j
      by_cases hj : i.val = j
      · rw [if_pos hj, if_pos hj.symm]; ring
      · rw [if_neg hj, if_neg (Ne.symm hj)]; ring
    simp only [this, Finset.sum_add_distrib, Finset.sum_ite_eq', Finset.mem_range, i.isLt, if_true]
    ring
  · have hmod : ∃ k, t = 4 * k ∧ 1 ≤ k := ⟨t / 4, by unfold Supported at h; omega, by unfold Supported at h; omega⟩
    obtain ⟨k, rfl, hk⟩ := hmod
    have hi := i.isLt
    generalize hr : i.val % 4 = r
    generalize hb : i.val / 4 = b
    have hr4 : r < 4 := by omega
    have hbk : b < k := by omega
    have hib : i.val = 4 * b + r := by omega
    let M4' : Nat → Nat → F := fun a c => M4 ⟨a % 4, Nat.mod_lt _ (by decide)⟩ ⟨c % 4, Nat.mod_lt _ (by decide)⟩
    have hrow : ∀ b', m4row x (4 * b' + r) =
        M4' i (4 * b') * x (4 * b') + M4' i (4 * b' + 1) * x (4 * b' + 1) +
          M4' i (4 * b' + 2) * x (4 * b' + 2) + M4' i (4 * b' + 3) * x (4 * b' + 3) := by
      intro b'
      rw [M4_apply r hr4]
      simp only [M4', hr, show 4 * b' % 4 = 0 by omega, show (4 * b' + 1) % 4 = 1 by omega,
        show (4 * b' + 2) % 4 = 2 by omega, show (4 * b' + 3) % 4 = 3 by omega]
      rfl
    by_cases ht : 4 * k = 4
    · rw [mulVec_range _ M4' (by intro i j; simp only [externalMatrix, Matrix.of_apply, if_neg h4, if_pos ht, M4'])]
      have hk1 : k = 1 := by omega
      subst hk1
      rw [sum_range_four, Finset.sum_range_one, mul_zero]
      have hb0 : b = 0 := by omega
      subst hb0
      unfold extFn
      rw [if_neg h4, if_pos ht, hib, hrow 0]
      simp [hib]
    · rw [mulVec_range _ (fun i j => if i / 4 = j / 4 then 2 * M4' i j else M4' i j)
        (by intro i j; simp only [externalMatrix, Matrix.of_apply, if_neg h4, if_neg ht, M4'])]
      rw [sum_range_four]
      unfold extFn
      rw [if_neg h4, if_neg ht, hr]
      have hk' : 4 * k / 4 = k := by omega
      simp only [hk', show ∀ b', 4 * b' / 4 = b' from fun b' => by omega,
        show ∀ b', (4 * b' + 1) / 4 = b' from fun b' => by omega,
        show ∀ b', (4 * b' + 2) / 4 = b' from fun b' => by omega,
        show ∀ b', (4 * b' + 3) / 4 = b' from fun b' => by omega, hb]
      have : ∀ b', (if b = b' then 2 * M4' i (4 * b') else M4' i (4 * b')) * x (4 * b') +
          (if b = b' then 2 * M4' i (4 * b' + 1) else M4' i (4 * b' + 1)) * x (4 * b' + 1) +
          (if b = b' then 2 * M4' i (4 * b' + 2) else M4' i (4 * b' + 2)) * x (4 * b' + 2) +
          (if b = b' then 2 * M4' i (4 * b' + 3) else M4' i (4 * b' + 3)) * x (4 * b' + 3) =
          m4row x (4 * b' + r) + (if b' = b then m4row x (4 * b' + r) else 0) := by
        intro b'
        rw [hrow]
        by_cases hbb : b = b'
        · simp only [if_pos hbb, if_pos hbb.symm]; ring
        · simp only [if_neg hbb, if_neg (Ne.symm hbb)]; ring
      simp only [this, Finset.sum_add_distrib, Finset.sum_ite_eq', Finset.mem_range, hbk, if_true]
      rw [hib, add_comm]

theorem intFn_eq {t : Nat} (diag x : Nat → F) (i : Fin t) :
    intFn t diag x i = (internalMatrix t diag *ᵥ fun j : Fin t => x j) i := by
  rw [mulVec_range _ (fun i j => if i = j then (if t < 4 then (if i + 1 = t then 3 else 2) else 1 + diag i) else 1)
    (by intro i j; simp [internalMatrix, Fin.ext_iff])]
  have : ∀ j, (if i.val = j then (if t < 4 then (if i.val + 1 = t then (3 : F) else 2) else 1 + diag i) else 1) * x j
      = x j + (if j = i.val then
          (if t < 4 then (if i.val + 1 = t then 2 * x i else x i) else x i * diag i) else 0) := by
    intro j
    by_cases hj : i.val = j
    · subst hj
      simp only [if_true]
      split_ifs <;> ring
    · rw [if_neg hj, if_neg (Ne.symm hj)]; ring
  simp only [this, Finset.sum_add_distrib, Finset.sum_ite_eq', Finset.mem_range, i.isLt, if_true]
  unfold intFn
  ring

theorem matmulExternal_ofFn {t : Nat} (h : Supported t) (x : Fin t → F) :
    matmulExternal t (List.ofFn x) = some (List.ofFn (externalMatrix t *ᵥ x)) := by
  rw [ofFn_eq_tl 0 x, matmulExternal_tl _ h, tl_eq_ofFn]
  congr 2
  funext i
  rw [extFn_eq h]
  simp

theorem matmulInternal_ofFn {t : Nat} (h : Supported t) (diag : List F) (hm : 4 ≤ t → t ≤ diag.length)
    (x : Fin t → F) :
    matmulInternal t (List.ofFn x) diag = some (List.ofFn (internalMatrix t (vec diag) *ᵥ x)) := by
  rw [ofFn_eq_tl 0 x, matmulInternal_tl _ _ h hm, tl_eq_ofFn]
  congr 2
  funext i
  rw [intFn_eq]
  simp

theorem fullRound_ofFn (P : Poseidon2Params F) (ht : Supported P.t) (hd : P.d = 3 ∨ P.d = 5 ∨ P.d = 7) {r : Nat}
    (hr : r < P.round_constants.length) (hrow : P.t ≤ (P.round_constants.getD r []).length) (x : Fin P.t → F) :
    fullRound P (List.ofFn x) r =
      some (List.ofFn (Spec.fullRound (externalMatrix P.t) P.d (fun i => tab P.round_constants r i) x)) := by
  unfold fullRound
  have hget : P.round_constants[r]? = some (P.round_constants.getD r []) := by
    exact getElem?_getD _ hr
  rw [hget]
  simp only [Option.bind_eq_bind, Option.bind_some]
  rw [eq_tl (P.round_constants.getD r []) 0, ofFn_eq_tl 0 x, addRc_tl _ _ _ _ hrow, sbox_tl hd]
  simp only [Option.bind_some]
  rw [tl_eq_ofFn, matmulExternal_ofFn ht]
  simp [Spec.fullRound, tab]

theorem partialRound_ofFn (P : Poseidon2Params F) (ht : Supported P.t) (hd : P.d = 3 ∨ P.d = 5 ∨ P.d = 7)
    (hdiag : 4 ≤ P.t → P.t ≤ P.mat_internal_diag_m_1.length) {r : Nat}
    (hr : r < P.round_constants.length) (hrow : 1 ≤ (P.round_constants.getD r []).length) (x : Fin P.t → F) :
    partialRound P (List.ofFn x) r =
      some (List.ofFn (Spec.partialRound (internalMatrix P.t (vec P.mat_internal_diag_m_1)) P.d
        (tab P.round_constants r 0) x)) := by
  have ht0 : 0 < P.t := by unfold Supported at ht; omega
  unfold partialRound
  have hget : get2 P.round_constants r 0 = some (tab P.round_constants r 0) := by
    have hget : P.round_constants[r]? = some (P.round_constants.getD r []) := by
      exact getElem?_getD _ hr
    simp only [get2, hget, Option.bind_eq_bind, Option.bind_some, tab]
    exact getElem?_getD 0 (by omega)
  rw [hget, ofFn_eq_tl 0 x]
  simp only [Option.bind_eq_bind, Option.bind_some, addAt_tl _ _ ht0, tl_get _ ht0, sboxP_eq hd, setAt_tl _ _ ht0]
  rw [tl_eq_ofFn, matmulInternal_ofFn ht _ hdiag]
  congr 3
  funext i
  by_cases hi : i.val = 0
  · have : i = ⟨0, ht0⟩ := Fin.ext hi
    subst this
    simp [ext0_lt _ _ ht0]
  · rw [Function.update_of_ne hi, Function.update_of_ne hi, if_neg hi]
    simp

theorem permutation_ofFn {dbg : Bool} {t d rounds_f rounds_p : Nat} {diag : List F} {mi rc : List (List F)}
    {P : Poseidon2Params F} (hP : Poseidon2Params.new dbg t d rounds_f rounds_p diag mi rc = some P)
    (hs : WellShaped t d rounds_f rounds_p diag rc) (x : Fin t → F) :
    permutation dbg P (List.ofFn x) =
      some (List.ofFn (poseidon2 (externalMatrix t) (internalMatrix t (vec diag)) d (rounds_f / 2) rounds_p
        (tab rc) x)) := by
  unfold Poseidon2Params.new at hP
  by_cases h1 : (d == 3 || d == 5 || d == 7 || d == 11) = true
  swap; · simp [assertThat, h1] at hP
  by_cases h2 : (rounds_f % 2 == 0) = true
  swap; · simp [assertThat, h1, h2] at hP
  simp only [assertThat, h1, h2, if_true, uadd_fits dbg hs.fits, Option.bind_eq_bind, Option.bind_some, Option.pure_def,
    Option.some.injEq] at hP
  have heven : rounds_f % 2 = 0 := by simpa using h2
  have ht0 : 0 < t := by have := hs.width; unfold Supported at this; omega
  have hrow : ∀ r, r < rc.length → t ≤ (rc.getD r []).length := by
    intro r hr
    apply hs.rc_rows
    rw [getD_getElem _ hr]
    exact List.getElem_mem hr
  subst hP
  unfold permutation
  simp only [List.length_ofFn, beq_self_eq_true, assertThat, if_true, Option.bind_eq_bind, Option.bind_some]
  rw [matmulExternal_ofFn hs.width]
  simp only [Option.bind_some]
  have hlen := hs.rc_len
  have hfull : ∀ a n, a + n ≤ rounds_f + rounds_p → ∀ y : Fin t → F,
      (List.range' a n).foldlM (fullRound
        { t := t, d := d, rounds_f_beginning := rounds_f / 2, rounds_p := rounds_p, rounds_f_end := rounds_f / 2,
          rounds := rounds_f + rounds_p, mat_internal_diag_m_1 := diag, mat_internal := mi,
          round_constants := rc }) (List.ofFn y) =
      some (List.ofFn (rounds (fun r => Spec.fullRound (externalMatrix t) d fun i : Fin t => tab rc r i) a n y)) := by
    intro a n han y
    apply rounds_loop (fun z : Fin t → F => List.ofFn z)
    intro r _ hr z
    exact fullRound_ofFn (F := F)
      { t := t, d := d, rounds_f_beginning := rounds_f / 2, rounds_p := rounds_p, rounds_f_end := rounds_f / 2,
          rounds := rounds_f + rounds_p, mat_internal_diag_m_1 := diag, mat_internal := mi,
          round_constants := rc }
      hs.width hs.degree (show r < rc.length by omega) (hrow r (by omega)) z
  rw [List.range_eq_range', hfull 0 (rounds_f / 2) (by omega)]
  simp only [Option.bind_some]
  rw [uadd_fits dbg (show rounds_f / 2 + rounds_p < 2 ^ 64 by have := hs.fits; omega)]
  simp only [Option.bind_some]
  rw [rounds_loop (fun z : Fin t → F => List.ofFn z) _
    (fun r => Spec.partialRound (internalMatrix t (vec diag)) d (tab rc r 0))]
  · simp only [Option.bind_some]
    rw [hfull _ _ (by omega)]
    congr 2
    unfold poseidon2
    rw [show rounds_f + rounds_p - (rounds_f / 2 + rounds_p) = rounds_f / 2 by omega,
      show rounds_f / 2 + rounds_p - rounds_f / 2 = rounds_p by omega]
  · intro r _ hr z
    exact partialRound_ofFn (F := F)
      { t := t, d := d, rounds_f_beginning := rounds_f / 2, rounds_p := rounds_p, rounds_f_end := rounds_f / 2,
          rounds := rounds_f + rounds_p, mat_internal_diag_m_1 := diag, mat_internal := mi,
          round_constants := rc }
      hs.width hs.degree hs.diag_len (show r < rc.length by omega)
      (le_trans ht0 (hrow r (by omega))) z

end Poseidon2

end ZkHash
