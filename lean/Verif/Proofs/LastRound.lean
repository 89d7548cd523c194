import Verif.Proofs.Universal
import Verif.Theorems.PoseidonBranch

set_option autoImplicit false

/-!
# Counting the constants of the last round for which two outputs differ by a given value
-/

namespace ZkHash.Universal

open Spec Matrix

section count

variable {F : Type} [Field F] [Fintype F] [DecidableEq F] {t : Nat}

/-- One full round on two different states. -/
theorem fullRound_count {d : Nat} (hd : 2 ≤ d) (hdF : (d : F) ≠ 0) (M : Matrix (Fin t) (Fin t) F) (i : Fin t)
    (hM : ∀ j, M i j ≠ 0) {z z' : Fin t → F} (hne : z ≠ z') (v : F) :
    (Finset.univ.filter fun c : Fin t → F => fullRound M d c z i - fullRound M d c z' i = v).card * Fintype.card F ≤
      (d - 1) * Fintype.card F ^ t := by
  obtain ⟨j, hj⟩ := Function.ne_iff.mp hne
  obtain ⟨g, hg⟩ : ∃ g : (Fin t → F) → F, g = fun c => ∑ l ∈ Finset.univ.erase j,
    M i l * ((z l + c l) ^ d - (z' l + c l) ^ d) := ⟨_, rfl⟩
  have hsum : ∀ c, fullRound M d c z i - fullRound M d c z' i =
      g c + M i j * ((z j + c j) ^ d - (z' j + c j) ^ d) := by
    intro c
    rw [hg]
    unfold fullRound
    simp only [mulVec, dotProduct]
    rw [← Finset.sum_sub_distrib, ← Finset.sum_erase_add _ _ (Finset.mem_univ j)]
    simp only [mul_sub]
  have := event_count (F := F) hd hdF j (fun _ => z j) (fun _ => z' j) (fun c => (v - g c) / M i j)
    (fun _ _ => rfl) (fun _ _ => rfl) (fun c k => by
      have : g (Function.update c j k) = g c := by
        rw [hg]
        refine Finset.sum_congr rfl fun l hl => ?_
        rw [Function.update_of_ne (Finset.ne_of_mem_erase hl)]
      rw [this])
  rw [Fintype.card_fin] at this
  refine le_trans (Nat.mul_le_mul_right _ (Finset.card_le_card fun c hc => ?_)) this
  rw [Finset.mem_filter, hsum] at hc
  rw [Finset.mem_filter]
  refine ⟨hc.1, hj, ?_⟩
  rw [eq_div_iff (hM j)]
  linear_combination hc.2

end count

section last

variable {F : Type} [Field F] {t : Nat}

theorem tab_set_ne (rc : List (List F)) (n : Nat) (row : List F) {r : Nat} (h : r ≠ n) (i : Nat) :
    tab (rc.set n row) r i = tab rc r i := by
  unfold tab
  simp only [List.getD, List.getElem?_set_ne h.symm]

theorem tab_set_self (rc : List (List F)) {n : Nat} (hn : n < rc.length) (c : Fin t → F) (i : Fin t) :
    tab (rc.set n (List.ofFn c)) n i = c i := by
  unfold tab
  simp only [List.getD, List.getElem?_set_self hn]
  simp

/-- The state before the last round of Poseidon2. -/
def beforeLast2 (ME MI : Matrix (Fin t) (Fin t) F) (d rf rp : Nat) (c : Nat → Nat → F) (x : Fin t → F) : Fin t → F :=
  rounds (fun r => fullRound ME d (fun i : Fin t => c r i)) (rf + 1 + rp) rf
    (rounds (fun r => partialRound MI d (c r 0)) (rf + 1) rp
      (rounds (fun r => fullRound ME d (fun i : Fin t => c r i)) 0 (rf + 1) (ME *ᵥ x)))

theorem poseidon2_last (ME MI : Matrix (Fin t) (Fin t) F) (d rf rp : Nat) (c : Nat → Nat → F) (x : Fin t → F) :
    poseidon2 ME MI d (rf + 1) rp c x =
      fullRound ME d (fun i : Fin t => c (rf + 1 + rp + rf) i) (beforeLast2 ME MI d rf rp c x) := rfl

theorem beforeLast2_congr (ME MI : Matrix (Fin t) (Fin t) F) (d rf rp : Nat) {c c' : Nat → Nat → F}
    (h : ∀ r < rf + 1 + rp + rf, ∀ i, c r i = c' r i) (x : Fin t → F) :
    beforeLast2 ME MI d rf rp c x = beforeLast2 ME MI d rf rp c' x := by
  have hf : ∀ r < rf + 1 + rp + rf, (fun i : Fin t => c r i) = fun i : Fin t => c' r i :=
    fun r hr => funext fun i => h r hr i
  unfold beforeLast2
  rw [ZkHash.rounds_congr _ (fun r => fullRound ME d (fun i : Fin t => c' r i)) 0 (rf + 1)
      (fun r _ h2 y => by simp only [hf r (by omega)]),
    ZkHash.rounds_congr _ (fun r => partialRound MI d (c' r 0)) (rf + 1) rp
      (fun r _ h2 y => by simp only [h r (by omega)]),
    ZkHash.rounds_congr _ (fun r => fullRound ME d (fun i : Fin t => c' r i)) (rf + 1 + rp) rf
      (fun r _ h2 y => by simp only [hf r (by omega)])]

/-- The state before the last round of Poseidon. -/
def beforeLast (M : Matrix (Fin t) (Fin t) F) (d rf rp : Nat) (c : Nat → Nat → F) (x : Fin t → F) : Fin t → F :=
  rounds (fun r => poseidonFull M d (fun i : Fin t => c r i)) (rf + 1 + rp) rf
    (rounds (fun r => poseidonPartial M d (fun i : Fin t => c r i)) (rf + 1) rp
      (rounds (fun r => poseidonFull M d (fun i : Fin t => c r i)) 0 (rf + 1) x))

theorem poseidon_last (M : Matrix (Fin t) (Fin t) F) (d rf rp : Nat) (c : Nat → Nat → F) (x : Fin t → F) :
    poseidon M d (rf + 1) rp c x =
      fullRound M d (fun i : Fin t => c (rf + 1 + rp + rf) i) (beforeLast M d rf rp c x) := rfl

theorem beforeLast_congr (M : Matrix (Fin t) (Fin t) F) (d rf rp : Nat) {c c' : Nat → Nat → F}
    (h : ∀ r < rf + 1 + rp + rf, ∀ i, c r i = c' r i) (x : Fin t → F) :
    beforeLast M d rf rp c x = beforeLast M d rf rp c' x := by
  have hf : ∀ r < rf + 1 + rp + rf, (fun i : Fin t => c r i) = fun i : Fin t => c' r i :=
    fun r hr => funext fun i => h r hr i
  unfold beforeLast
  rw [ZkHash.rounds_congr _ (fun r => poseidonFull M d (fun i : Fin t => c' r i)) 0 (rf + 1)
      (fun r _ h2 y => by simp only [hf r (by omega)]),
    ZkHash.rounds_congr _ (fun r => poseidonPartial M d (fun i : Fin t => c' r i)) (rf + 1) rp
      (fun r _ h2 y => by simp only [hf r (by omega)]),
    ZkHash.rounds_congr _ (fun r => poseidonFull M d (fun i : Fin t => c' r i)) (rf + 1 + rp) rf
      (fun r _ h2 y => by simp only [hf r (by omega)])]

end last

/-- No entry of the external matrix is zero if 2, 3, 5 and 7 are not. -/
theorem externalMatrix_ne_zero {F : Type} [Field F] (h : (210 : F) ≠ 0) {t : Nat} (i j : Fin t) :
    (externalMatrix t : Matrix (Fin t) (Fin t) F) i j ≠ 0 := by
  have e : (210 : F) = 2 * 3 * 5 * 7 := by norm_num
  rw [e] at h
  have h2 : (2 : F) ≠ 0 := by rintro h'; simp [h'] at h
  have h3 : (3 : F) ≠ 0 := by rintro h'; simp [h'] at h
  have h5 : (5 : F) ≠ 0 := by rintro h'; simp [h'] at h
  have h7 : (7 : F) ≠ 0 := by rintro h'; simp [h'] at h
  have h4 : (4 : F) ≠ 0 := by rw [show (4 : F) = 2 * 2 by norm_num]; exact mul_ne_zero h2 h2
  have h6 : (6 : F) ≠ 0 := by rw [show (6 : F) = 2 * 3 by norm_num]; exact mul_ne_zero h2 h3
  have hM : ∀ a b : Fin 4, (M4 : Matrix (Fin 4) (Fin 4) F) a b ≠ 0 := by
    intro a b
    fin_cases a <;> fin_cases b <;> simp [M4, h3, h4, h5, h6, h7]
  unfold externalMatrix
  rw [of_apply]
  split
  · split
    · exact h2
    · exact one_ne_zero
  · split
    · exact hM _ _
    · split
      · exact mul_ne_zero h2 (hM _ _)
      · exact hM _ _

/-- No entry of an MDS matrix is zero. -/
theorem mds_ne_zero {F : Type} [Field F] {t : Nat} {M : Matrix (Fin t) (Fin t) F} (h : IsMDS M) (i j : Fin t) : M i j ≠ 0 := by
  have := h 1 ⟨fun _ => i, fun _ _ _ => Subsingleton.elim _ _⟩ ⟨fun _ => j, fun _ _ _ => Subsingleton.elim _ _⟩
  rw [det_fin_one] at this
  exact this

end ZkHash.Universal
