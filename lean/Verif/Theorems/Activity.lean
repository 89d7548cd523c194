import Verif.Proofs.Krylov
import Verif.Instances.All
import Verif.Theorems.PoseidonInstances
import Verif.Theorems.NeptuneBranch
import Verif.Theorems.Poseidon2Branch

set_option autoImplicit false

/-!
# Differences that avoid the S-boxes of the partial rounds: C59
-/

namespace ZkHash

variable {dbg : Bool}

open Spec Matrix

/-- The kernel evaluates the check on every shipped Poseidon2 table. -/
theorem poseidon2_krylov_checked :
    (Instances.poseidon2.all fun S => Krylov.check S.modulus S.t S.matInternal) = true := by decide +kernel

/-- The kernel evaluates the check on every shipped Poseidon table. -/
theorem poseidon_krylov_checked :
    (Instances.poseidon.all fun S => Krylov.check S.modulus S.t S.mds) = true := by decide +kernel

theorem Poseidon2Good.matOf {S : Poseidon2Source} (h : Poseidon2Good S) :
    internalMatrix S.t (vec S.diagF) = PoseidonSource.matOf S.modulus S.t S.matInternal := by
  have h1 := h.internal
  ext i j
  have h2 : tab S.matInternalF i j = internalMatrix S.t (vec S.diagF) i j := by
    rw [h1]
    simp [tab, rowsOf]
  rw [← h2, PoseidonSource.matOf_getD]
  unfold tab Poseidon2Source.matInternalF
  rw [← getD_map_cast]
  congr 1
  rw [List.getD_eq_getElem?_getD, List.getD_eq_getElem?_getD, List.getElem?_map]
  cases S.matInternal[i.val]? <;> rfl

/-- **C59** for Poseidon2: for every shipped instance and every `k ≤ t` there is a subspace `W` of dimension `t - k`
such that for any `k` consecutive rounds treated as partial rounds, two states have the same S-box input in all of them
exactly if their difference lies in `W`. -/
theorem C59_poseidon2 (S : Poseidon2Source) (hS : S ∈ Instances.poseidon2) [Fact S.modulus.Prime] :
    ∃ P, S.params dbg = some P ∧ ∀ k ≤ S.t, ∃ W : Submodule (ZMod S.modulus) (Fin S.t → ZMod S.modulus),
      Module.finrank (ZMod S.modulus) W = S.t - k ∧ ∀ r, r + k ≤ P.rounds → ∀ x y : Fin S.t → ZMod S.modulus,
        SameFirstWord (Poseidon2.partialRound P) r k (List.ofFn x) (List.ofFn y) ↔ x - y ∈ W := by
  have hg := poseidon2_good S hS
  obtain ⟨P, hP⟩ := hg.params
  refine ⟨P, hP, fun k hk => ?_⟩
  have hw := hg.width
  have ht : 0 < S.t := by unfold Supported at hw; omega
  have hc := List.all_eq_true.mp poseidon2_krylov_checked S hS
  have hq := Krylov.check_imp hc ht
  rw [← hg.matOf] at hq
  refine ⟨Krylov.quiet ht (internalMatrix S.t (vec S.diagF)) k, Krylov.quiet_finrank ht _ hq hk, fun r hr x y => ?_⟩
  unfold Poseidon2Source.params at hP
  have hs := hg.shaped
  obtain ⟨h1, h2, h3, h4⟩ := Poseidon2.new_fields hP
  have h5 := Poseidon2.new_diag hP
  generalize S.t = t at *
  subst h1
  refine Krylov.sameFirstWord_iff ht (internalMatrix P.t (vec S.diagF))
    (fun r => Spec.partialRound (internalMatrix P.t (vec S.diagF)) P.d (tab P.round_constants r 0)) ?_ _ r k ?_ x y
  · intro r x y hxy
    unfold Spec.partialRound
    rw [← mulVec_sub]
    congr 1
    funext i
    rw [Pi.sub_apply, Pi.sub_apply]
    by_cases hi : i.val = 0
    · have : i = ⟨0, ht⟩ := Fin.ext hi
      subst this
      rw [hxy]
      simp
    · rw [if_neg hi, if_neg hi]
  · intro i _ hi z
    have hlen : i < P.round_constants.length := by rw [h4]; have := hs.rc_len; have := hs.fits; omega
    have := Poseidon2.partialRound_ofFn P hw (by rw [h2]; exact hs.degree) (by rw [h5]; exact hs.diag_len) hlen (by
      rw [List.getD_eq_getElem _ _ hlen]
      have := List.getElem_mem hlen
      generalize P.round_constants[i] = z at this
      rw [h4] at this
      have := hs.rc_rows _ this
      omega) z
    rwa [h5] at this

/-- **C59** for Poseidon, likewise. -/
theorem C59_poseidon (S : PoseidonSource) (hS : S ∈ Instances.poseidon) [Fact S.modulus.Prime] (dbg : Bool) :
    ∃ P, S.params dbg = some P ∧ ∀ k ≤ S.t, ∃ W : Submodule (ZMod S.modulus) (Fin S.t → ZMod S.modulus),
      Module.finrank (ZMod S.modulus) W = S.t - k ∧ ∀ r, r + k ≤ P.rounds → ∀ x y : Fin S.t → ZMod S.modulus,
        SameFirstWord (Poseidon.partialRound dbg P) r k (List.ofFn x) (List.ofFn y) ↔ x - y ∈ W := by
  have hg := poseidon_good S hS
  obtain ⟨P, hP⟩ := hg.returns dbg
  refine ⟨P, hP, fun k hk => ?_⟩
  have ht : 0 < S.t := by have := hg.width; omega
  have hc := List.all_eq_true.mp poseidon_krylov_checked S hS
  have hq := Krylov.check_imp hc ht
  refine ⟨Krylov.quiet ht _ k, Krylov.quiet_finrank ht _ hq hk, fun r hr x y => ?_⟩
  unfold PoseidonSource.params at hP
  rw [hg.mds] at hP
  obtain ⟨hd, -⟩ := Poseidon.new_args hP
  obtain ⟨-, h2, -, -, h5, h6, h7⟩ := Poseidon.new_fields hP
  have hs := hg.shaped
  refine Krylov.sameFirstWord_iff ht _
    (fun r => poseidonPartial (PoseidonSource.matOf S.modulus S.t S.mds) P.d (fun i => tab P.round_constants r i))
    ?_ _ r k ?_ x y
  · intro r x y hxy
    unfold poseidonPartial
    rw [← mulVec_sub]
    congr 1
    funext i
    rw [Pi.sub_apply, Pi.sub_apply]
    by_cases hi : i.val = 0
    · have : i = ⟨0, ht⟩ := Fin.ext hi
      subst this
      rw [hxy]
      simp
    · rw [if_neg hi, if_neg hi]
      ring
  · intro i _ hi z
    have hlen : i < P.round_constants.length := by rw [h7]; have := hs.rc_len; have := hs.fits; omega
    have hrow : (P.round_constants.getD i []).length = S.t := by
      rw [List.getD_eq_getElem _ _ hlen]
      have := List.getElem_mem hlen
      generalize P.round_constants[i] = z at this
      rw [h7] at this
      exact hs.rc_rows _ this
    have := Poseidon.partialRound_cut ht dbg P _ h6 (by rw [h2]; exact hd) hlen (fun _ => hrow.ge) (by omega) z
    rw [hrow, Poseidon.cut_full le_rfl] at this
    exact this

/-- **C59**, the case `k = t`: in any `t` consecutive partial rounds some S-box receives different inputs, if the states
are different. -/
theorem C59_poseidon2_active (S : Poseidon2Source) (hS : S ∈ Instances.poseidon2) [Fact S.modulus.Prime] :
    ∃ P, S.params dbg = some P ∧ ∀ r, r + S.t ≤ P.rounds → ∀ x y : Fin S.t → ZMod S.modulus,
      SameFirstWord (Poseidon2.partialRound P) r S.t (List.ofFn x) (List.ofFn y) → x = y := by
  obtain ⟨P, hP, h⟩ := C59_poseidon2 S hS
  obtain ⟨W, hW, h⟩ := h S.t le_rfl
  rw [Nat.sub_self, Submodule.finrank_eq_zero] at hW
  refine ⟨P, hP, fun r hr x y hxy => ?_⟩
  have := (h r hr x y).mp hxy
  rw [hW, Submodule.mem_bot, sub_eq_zero] at this
  exact this

/-- **C59**, the case `k = t`, for Poseidon. -/
theorem C59_poseidon_active (S : PoseidonSource) (hS : S ∈ Instances.poseidon) [Fact S.modulus.Prime] (dbg : Bool) :
    ∃ P, S.params dbg = some P ∧ ∀ r, r + S.t ≤ P.rounds → ∀ x y : Fin S.t → ZMod S.modulus,
      SameFirstWord (Poseidon.partialRound dbg P) r S.t (List.ofFn x) (List.ofFn y) → x = y := by
  obtain ⟨P, hP, h⟩ := C59_poseidon S hS dbg
  obtain ⟨W, hW, h⟩ := h S.t le_rfl
  rw [Nat.sub_self, Submodule.finrank_eq_zero] at hW
  refine ⟨P, hP, fun r hr x y hxy => ?_⟩
  have := (h r hr x y).mp hxy
  rw [hW, Submodule.mem_bot, sub_eq_zero] at this
  exact this

/-- **C59**, the other side: with fewer partial rounds than words there are different states with equal S-box inputs in
all the partial rounds. -/
theorem C59_poseidon2_quiet (S : Poseidon2Source) (hS : S ∈ Instances.poseidon2) [Fact S.modulus.Prime]
    (hp : S.rounds_p < S.t) :
    ∃ P, S.params dbg = some P ∧ ∃ x y : Fin S.t → ZMod S.modulus, x ≠ y ∧
      SameFirstWord (Poseidon2.partialRound P) P.rounds_f_beginning S.rounds_p (List.ofFn x) (List.ofFn y) := by
  obtain ⟨P, hP, h⟩ := C59_poseidon2 S hS
  obtain ⟨W, hW, h⟩ := h S.rounds_p hp.le
  refine ⟨P, hP, ?_⟩
  have hb : W ≠ ⊥ := by
    rintro rfl
    rw [finrank_bot] at hW
    omega
  obtain ⟨w, hw, hw0⟩ := (Submodule.ne_bot_iff W).mp hb
  refine ⟨w, 0, hw0, (h _ ?_ _ _).mpr (by rwa [sub_zero])⟩
  unfold Poseidon2Source.params Poseidon2Params.new at hP
  simp only [Option.bind_eq_bind, Option.bind_eq_some_iff] at hP
  obtain ⟨_, _, _, _, n, hn, h⟩ := hP
  simp only [Option.pure_def, Option.some.injEq] at h
  rw [← h]
  have hfit := (poseidon2_good S hS).shaped.fits
  have hn := (uadd_some_iff.mp hn).2
  show S.rounds_f / 2 + S.rounds_p ≤ n
  omega

/-- The hypothesis of `C59_poseidon2_quiet` holds for two shipped instances, those for BabyBear. -/
example : (Instances.poseidon2.filter fun S => S.rounds_p < S.t).map (fun S => (S.t, S.rounds_p)) =
    [(16, 13), (24, 21)] := by decide +kernel

end ZkHash
