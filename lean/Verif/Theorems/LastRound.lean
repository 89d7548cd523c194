import Verif.Proofs.LastRound
import Verif.Theorems.Universal
import Verif.Theorems.Poseidon2Branch

set_option autoImplicit false

/-!
# How rarely the constants of the last round produce a given difference of outputs, in Poseidon2 and Poseidon: C88
-/

namespace ZkHash

open Spec Matrix

variable {dbg : Bool}

theorem WellShaped.set {F : Type} [Field F] {t d rounds_f rounds_p : Nat} {diag : List F} {rc : List (List F)}
    (hs : WellShaped t d rounds_f rounds_p diag rc) (n : Nat) (c : Fin t → F) :
    WellShaped t d rounds_f rounds_p diag (rc.set n (List.ofFn c)) where
  width := hs.width
  degree := hs.degree
  diag_len := hs.diag_len
  rc_len := by rw [List.length_set]; exact hs.rc_len
  rc_rows := by
    intro row hrow
    rcases List.mem_or_eq_of_mem_set hrow with h | h
    · exact hs.rc_rows row h
    · rw [h, List.length_ofFn]
  fits := hs.fits

theorem PoseidonShaped.set {F : Type} [Field F] {t rounds_f rounds_p : Nat} {rc : List (List F)}
    (hs : PoseidonShaped t rounds_f rounds_p rc) (n : Nat) (c : Fin t → F) :
    PoseidonShaped t rounds_f rounds_p (rc.set n (List.ofFn c)) where
  rc_len := by rw [List.length_set]; exact hs.rc_len
  rc_rows := by
    intro row hrow
    rcases List.mem_or_eq_of_mem_set hrow with h | h
    · exact hs.rc_rows row h
    · rw [h, List.length_ofFn]
  fits := hs.fits

/-- **C88.** Poseidon2 over a finite field with `q` elements in which `d` and 210 are not zero, with at least two full
rounds. Fix well-shaped arguments and two inputs on which the permutation built from them gives different results; fix a
word `i` and a difference `v`. Now replace the `t` constants of the last round. Of the `q ^ t` possible replacements all
but a fraction of at most `(d - 1) / q` are good: the constructor accepts them, the permutation returns on both inputs,
and the two results differ in word `i` by something else than `v`. -/
theorem C88_poseidon2 {F : Type} [Field F] [Fintype F] {t d rounds_f rounds_p : Nat} {diag : List F}
    {mat_internal rc : List (List F)} {P : Poseidon2Params F}
    (hP : Poseidon2Params.new dbg t d rounds_f rounds_p diag mat_internal rc = some P)
    (hs : WellShaped t d rounds_f rounds_p diag rc) (hf : 2 ≤ rounds_f) (hdF : (d : F) ≠ 0) (h210 : (210 : F) ≠ 0)
    {x x' : List F} (hx : x.length = t) (hx' : x'.length = t)
    (hne : Poseidon2.permutation dbg P x ≠ Poseidon2.permutation dbg P x') {i : Nat} (hi : i < t) (v : F) :
    Nat.card {c : Fin t → F // ¬ ∃ Q y y' a b,
        Poseidon2Params.new dbg t d rounds_f rounds_p diag mat_internal
          (rc.set (rounds_f + rounds_p - 1) (List.ofFn c)) = some Q ∧
        Poseidon2.permutation dbg Q x = some y ∧ Poseidon2.permutation dbg Q x' = some y' ∧
        y[i]? = some a ∧ y'[i]? = some b ∧ a - b ≠ v} * Fintype.card F ≤
      (d - 1) * Fintype.card F ^ t := by
  classical
  have heven : rounds_f % 2 = 0 := by
    by_contra h
    rw [(C05_new_panics_iff dbg t d rounds_f rounds_p diag mat_internal rc).mpr (Or.inr (Or.inl (by omega)))] at hP
    cases hP
  obtain ⟨x, rfl⟩ := eq_ofFn x hx
  obtain ⟨x', rfl⟩ := eq_ofFn x' hx'
  obtain ⟨rf, hrf⟩ : ∃ rf, rounds_f / 2 = rf + 1 := ⟨rounds_f / 2 - 1, by omega⟩
  have hn : rounds_f + rounds_p - 1 = rf + 1 + rounds_p + rf := by omega
  have hlen := hs.rc_len
  have hd := hs.degree
  rw [C01_permutation_eq_spec hP hs, C01_permutation_eq_spec hP hs, hrf, Universal.poseidon2_last,
    Universal.poseidon2_last] at hne
  have hne' : Universal.beforeLast2 (externalMatrix t) (internalMatrix t (vec diag)) d rf rounds_p (tab rc) x ≠
      Universal.beforeLast2 (externalMatrix t) (internalMatrix t (vec diag)) d rf rounds_p (tab rc) x' :=
    fun h => hne (by rw [h])
  refine le_trans (Nat.mul_le_mul_right _ (card_subtype_le fun c hc => ?_))
    (Universal.fullRound_count (by omega) hdF (externalMatrix t) ⟨i, hi⟩
      (fun j => Universal.externalMatrix_ne_zero h210 _ j) hne' v)
  by_contra hv
  obtain ⟨Q, hQ, -⟩ := C03_permutation_total (dbg := dbg) (mat_internal := mat_internal)
    (WellShaped.set hs (rounds_f + rounds_p - 1) c) heven
  have hQx := fun z => C01_permutation_eq_spec hQ (WellShaped.set hs (rounds_f + rounds_p - 1) c) z
  have hlast : ∀ z : Fin t → F, poseidon2 (externalMatrix t) (internalMatrix t (vec diag)) d (rounds_f / 2) rounds_p
      (tab (rc.set (rounds_f + rounds_p - 1) (List.ofFn c))) z = fullRound (externalMatrix t) d c
        (Universal.beforeLast2 (externalMatrix t) (internalMatrix t (vec diag)) d rf rounds_p (tab rc) z) := by
    intro z
    rw [hrf, Universal.poseidon2_last, hn,
      Universal.beforeLast2_congr _ _ _ _ _ (fun r hr i => Universal.tab_set_ne rc _ _ (by omega) i) z]
    congr 1
    funext j
    exact Universal.tab_set_self rc (by omega) c j
  refine hc ⟨Q, _, _, _, _, hQ, hQx x, hQx x', List.getElem?_eq_getElem (by simpa using hi),
    List.getElem?_eq_getElem (by simpa using hi), ?_⟩
  rw [List.getElem_ofFn, List.getElem_ofFn, hlast, hlast]
  exact hv

/-- **C88** for the shipped Poseidon2 parameter sets: any two different inputs. -/
theorem C88_poseidon2_shipped (S : Poseidon2Source) (hS : S ∈ Instances.poseidon2) (dbg : Bool)
    {x x' : List (ZMod S.modulus)} (hx : x.length = S.t) (hx' : x'.length = S.t) (hne : x ≠ x') {i : Nat} (hi : i < S.t)
    (v : ZMod S.modulus) :
    Nat.card {c : Fin S.t → ZMod S.modulus // ¬ ∃ Q y y' a b,
        Poseidon2Params.new dbg S.t S.d S.rounds_f S.rounds_p S.diagF S.matInternalF
          (S.rcF.set (S.rounds_f + S.rounds_p - 1) (List.ofFn c)) = some Q ∧
        Poseidon2.permutation dbg Q x = some y ∧ Poseidon2.permutation dbg Q x' = some y' ∧
        y[i]? = some a ∧ y'[i]? = some b ∧ a - b ≠ v} * S.modulus ≤
      (S.d - 1) * S.modulus ^ S.t := by
  have hg := poseidon2_good S hS
  have hF : Fact S.modulus.Prime := ⟨declared_prime hg.declared⟩
  have hle := Branch.declared_le hg.declared
  have hN : NeZero S.modulus := ⟨by omega⟩
  obtain ⟨P, hP, hperm⟩ := C08_shipped_bijective (dbg := dbg) S hS
  have hd := hg.shaped.degree
  have h2 : (Instances.poseidon2.all fun S => decide (2 ≤ S.rounds_f)) = true := by decide +kernel
  have h2 := List.all_eq_true.mp h2 S hS
  rw [decide_eq_true_eq] at h2
  have hcast : ∀ n : Nat, 0 < n → n < 2013265921 → (n : ZMod S.modulus) ≠ 0 := by
    intro n h0 hn
    rw [Ne, ZMod.natCast_eq_zero_iff]
    intro hdvd
    have := Nat.le_of_dvd h0 hdvd
    omega
  have h210 : (210 : ZMod S.modulus) ≠ 0 := by
    have := hcast 210 (by omega) (by omega)
    exact_mod_cast this
  have hne' : Poseidon2.permutation dbg P x ≠ Poseidon2.permutation dbg P x' := by
    intro he
    obtain ⟨y, hy, hxy⟩ := hperm.1 x hx
    obtain ⟨w, -, huniq⟩ := hperm.2 y hy
    exact hne ((huniq x ⟨hx, hxy⟩).trans (huniq x' ⟨hx', he ▸ hxy⟩).symm)
  have := C88_poseidon2 hP hg.shaped h2 (hcast S.d (by omega) (by omega)) h210 hx hx' hne' hi v
  rwa [ZMod.card] at this

/-- **C88**, Poseidon: the same for Poseidon (and so for its optimized and its plain permutation) with any matrix that has
no zero in row `i`. -/
theorem C88_poseidon {F : Type} [Field F] [Fintype F] [DecidableEq F] {t d rounds_f rounds_p : Nat}
    {M : Matrix (Fin t) (Fin t) F} {rc : List (List F)} {P : PoseidonParams F}
    (hP : PoseidonParams.new dbg t d rounds_f rounds_p (rowsOf M) rc = some P)
    (hs : PoseidonShaped t rounds_f rounds_p rc) (hf : 2 ≤ rounds_f) (hdF : (d : F) ≠ 0)
    {x x' : List F} (hx : x.length = t) (hx' : x'.length = t)
    (hne : Poseidon.permutation dbg P x ≠ Poseidon.permutation dbg P x') {i : Nat} (hi : i < t)
    (hM : ∀ j, M ⟨i, hi⟩ j ≠ 0) (v : F) :
    Nat.card {c : Fin t → F // ¬ ∃ Q y y' a b,
        PoseidonParams.new dbg t d rounds_f rounds_p (rowsOf M)
          (rc.set (rounds_f + rounds_p - 1) (List.ofFn c)) = some Q ∧
        Poseidon.permutation dbg Q x = some y ∧ Poseidon.permutationNotOpt dbg Q x = some y ∧
        Poseidon.permutation dbg Q x' = some y' ∧ Poseidon.permutationNotOpt dbg Q x' = some y' ∧
        y[i]? = some a ∧ y'[i]? = some b ∧ a - b ≠ v} * Fintype.card F ≤
      (d - 1) * Fintype.card F ^ t := by
  classical
  obtain ⟨hd, heven, hp, ht, -⟩ := Poseidon.new_args hP
  obtain ⟨x, rfl⟩ := eq_ofFn x hx
  obtain ⟨x', rfl⟩ := eq_ofFn x' hx'
  obtain ⟨rf, hrf⟩ : ∃ rf, rounds_f / 2 = rf + 1 := ⟨rounds_f / 2 - 1, by omega⟩
  have hn : rounds_f + rounds_p - 1 = rf + 1 + rounds_p + rf := by omega
  have hlen := hs.rc_len
  rw [C12_permutation_eq_spec hP hs, C12_permutation_eq_spec hP hs, hrf, Universal.poseidon_last,
    Universal.poseidon_last] at hne
  have hne' : Universal.beforeLast M d rf rounds_p (tab rc) x ≠ Universal.beforeLast M d rf rounds_p (tab rc) x' :=
    fun h => hne (by rw [h])
  refine le_trans (Nat.mul_le_mul_right _ (card_subtype_le fun c hc => ?_))
    (Universal.fullRound_count (by omega) hdF M ⟨i, hi⟩ hM hne' v)
  by_contra hv
  have hs' := PoseidonShaped.set hs (rounds_f + rounds_p - 1) c
  obtain ⟨Q, hQ⟩ : ∃ Q, PoseidonParams.new dbg t d rounds_f rounds_p (rowsOf M)
      (rc.set (rounds_f + rounds_p - 1) (List.ofFn c)) = some Q := by
    clear hv hne' hne
    obtain ⟨s, rfl⟩ : ∃ s, t = s + 1 := ⟨t - 1, by omega⟩
    rw [C15_new_returns_iff dbg (by omega) d rounds_f rounds_p M _ hs']
    exact (C15_new_returns_iff dbg (by omega) d rounds_f rounds_p M _ hs).mp ⟨P, hP⟩
  have hlast : ∀ z : Fin t → F, poseidon M d (rounds_f / 2) rounds_p
      (tab (rc.set (rounds_f + rounds_p - 1) (List.ofFn c))) z = fullRound M d c
        (Universal.beforeLast M d rf rounds_p (tab rc) z) := by
    intro z
    rw [hrf, Universal.poseidon_last, hn,
      Universal.beforeLast_congr _ _ _ _ (fun r hr i => Universal.tab_set_ne rc _ _ (by omega) i) z]
    congr 1
    funext j
    exact Universal.tab_set_self rc (by omega) c j
  refine hc ⟨Q, _, _, _, _, hQ, C12_permutation_eq_spec hQ hs' dbg x, C13_plain_eq_spec hQ hs' dbg x,
    C12_permutation_eq_spec hQ hs' dbg x', C13_plain_eq_spec hQ hs' dbg x',
    List.getElem?_eq_getElem (by simpa using hi), List.getElem?_eq_getElem (by simpa using hi), ?_⟩
  rw [List.getElem_ofFn, List.getElem_ofFn, hlast, hlast]
  exact hv

/-- **C88** for the shipped Poseidon parameter sets: any two different inputs. -/
theorem C88_poseidon_shipped (S : PoseidonSource) (hS : S ∈ Instances.poseidon) [Fact S.modulus.Prime] (dbg : Bool)
    {x x' : List (ZMod S.modulus)} (hx : x.length = S.t) (hx' : x'.length = S.t) (hne : x ≠ x') {i : Nat} (hi : i < S.t)
    (v : ZMod S.modulus) :
    Nat.card {c : Fin S.t → ZMod S.modulus // ¬ ∃ Q y y' a b,
        PoseidonParams.new dbg S.t S.d S.rounds_f S.rounds_p S.mdsF
          (S.rcF.set (S.rounds_f + S.rounds_p - 1) (List.ofFn c)) = some Q ∧
        Poseidon.permutation dbg Q x = some y ∧ Poseidon.permutationNotOpt dbg Q x = some y ∧
        Poseidon.permutation dbg Q x' = some y' ∧ Poseidon.permutationNotOpt dbg Q x' = some y' ∧
        y[i]? = some a ∧ y'[i]? = some b ∧ a - b ≠ v} * S.modulus ≤
      (S.d - 1) * S.modulus ^ S.t := by
  have hg := poseidon_good S hS
  have hle := Branch.declared_le hg.declared
  have hN : NeZero S.modulus := ⟨by omega⟩
  have hmds := C52_mds S hS
  obtain ⟨P, hP, -, hperm⟩ := C17_shipped S hS dbg
  rw [hg.mdsMatrix_eq] at hmds
  unfold PoseidonSource.params at hP
  rw [hg.mds] at hP ⊢
  obtain ⟨hd, -⟩ := Poseidon.new_args hP
  have h2 : (Instances.poseidon.all fun S => decide (2 ≤ S.rounds_f)) = true := by decide +kernel
  have h2 := List.all_eq_true.mp h2 S hS
  rw [decide_eq_true_eq] at h2
  have hdF : (S.d : ZMod S.modulus) ≠ 0 := by
    rw [Ne, ZMod.natCast_eq_zero_iff]
    intro hdvd
    have := Nat.le_of_dvd (by omega) hdvd
    omega
  have hne' : Poseidon.permutation dbg P x ≠ Poseidon.permutation dbg P x' := by
    intro he
    obtain ⟨y, hy, hxy⟩ := hperm.1 x hx
    obtain ⟨w, -, huniq⟩ := hperm.2 y hy
    exact hne ((huniq x ⟨hx, hxy⟩).trans (huniq x' ⟨hx', he ▸ hxy⟩).symm)
  have := C88_poseidon hP hg.shaped h2 hdF hx hx' hne' hi (fun j => Universal.mds_ne_zero hmds _ j) v
  rwa [ZMod.card] at this

/-- Concrete hypotheses over the field with 11 elements: the small parameter set `exDiag`, `exRc` of width 4, and two inputs
that differ in one word. At most 2662 of the 14641 rows of constants for the last round give equal first words. -/
example : Nat.card {c : Fin 4 → ZMod 11 // ¬ ∃ Q y y' a b,
      Poseidon2Params.new true 4 3 2 1 exDiag [] (exRc.set 2 (List.ofFn c)) = some Q ∧
      Poseidon2.permutation true Q [1, 2, 3, 4] = some y ∧ Poseidon2.permutation true Q [1, 2, 3, 5] = some y' ∧
      y[0]? = some a ∧ y'[0]? = some b ∧ a - b ≠ 0} ≤ 2662 := by
  have hne : ∀ P, Poseidon2Params.new true 4 3 2 1 exDiag [] exRc = some P →
      Poseidon2.permutation true P [1, 2, 3, 4] ≠ Poseidon2.permutation true P [1, 2, 3, 5] := by
    intro P hP
    cases hP
    decide +kernel
  have h := C88_poseidon2 (dbg := true) (P := _) (x := [1, 2, 3, 4]) (x' := [1, 2, 3, 5]) (i := 0) rfl ex_wellShaped
    (by omega) (by decide) (by decide) rfl rfl (hne _ rfl) (by omega) 0
  rw [ZMod.card] at h
  have : ((3 - 1) * 11 ^ 4 : ℕ) = 2662 * 11 := by norm_num
  rw [this] at h
  exact Nat.le_of_mul_le_mul_right h (by norm_num)

/-- The matrix and constants of the small Poseidon parameter set `exM`, `exRc3` meet the hypotheses too. -/
example : ∃ P, PoseidonParams.new true 3 3 2 2 (rowsOf exM) exRc3 = some P ∧ PoseidonShaped 3 2 2 exRc3 ∧
    Poseidon.permutation true P [1, 2, 3] ≠ Poseidon.permutation true P [1, 2, 4] ∧ ∀ i j, exM i j ≠ 0 := by
  obtain ⟨P, hP⟩ := ex_new true
  have hperm := (C14_bijective_iff hP ex_shaped true).2.mpr (by decide)
  refine ⟨P, hP, ex_shaped, fun he => ?_, fun i j => by fin_cases i <;> fin_cases j <;> decide⟩
  obtain ⟨y, hy, hxy⟩ := hperm.1 [1, 2, 3] rfl
  obtain ⟨w, -, huniq⟩ := hperm.2 y hy
  have := (huniq [1, 2, 3] ⟨rfl, hxy⟩).trans (huniq [1, 2, 4] ⟨rfl, he ▸ hxy⟩).symm
  revert this
  decide

end ZkHash
