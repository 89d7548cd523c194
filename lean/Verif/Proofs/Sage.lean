import Verif.Model.Sage
import Verif.Spec.Poseidon
import Verif.Proofs.Poseidon2Spec
import Verif.Proofs.Bijective
import Verif.Proofs.MatOps

set_option autoImplicit false

/-!
# The reference functions of the script compute the specifications
-/

namespace ZkHash.Sage

open Spec Matrix

variable {F : Type _} [CommRing F]

theorem zipWith_mul_sum {n : Nat} (x y : Fin n → F) :
    (List.zipWith (· * ·) (List.ofFn x) (List.ofFn y)).sum = ∑ i, x i * y i := by
  rw [show List.zipWith (· * ·) (List.ofFn x) (List.ofFn y) = List.ofFn fun i => x i * y i by
    apply List.ext_getElem <;> simp, List.sum_ofFn]

theorem matVec_rowsOf {n m : Nat} (M : Matrix (Fin n) (Fin m) F) (x : Fin m → F) :
    matVec (rowsOf M) (List.ofFn x) = some (List.ofFn (M *ᵥ x)) := by
  unfold matVec rowsOf
  rw [ofFn_eq_tl [], tl_mapM _ _ _ fun row => (List.zipWith (· * ·) row (List.ofFn x)).sum]
  · congr 1
    rw [tl_eq_ofFn]
    congr 1
    funext i
    rw [ext0_fin, zipWith_mul_sum]
    rfl
  · intro i hi
    rw [ext0_lt _ _ hi]
    simp

theorem flatten_get {t : Nat} (rc : List (List F)) (hrow : ∀ row ∈ rc, row.length = t) {r i : Nat} (hr : r < rc.length)
    (hi : i < t) : rc.flatten[r * t + i]? = some (tab rc r i) := by
  induction rc generalizing r with
  | nil => simp at hr
  | cons row rest ih =>
    have h0 : row.length = t := hrow row (by simp)
    rw [List.flatten_cons]
    cases r with
    | zero =>
      rw [Nat.zero_mul, Nat.zero_add, List.getElem?_append_left (by omega)]
      rw [getElem?_getD 0 (by omega)]
      simp [tab]
    | succ r =>
      rw [List.getElem?_append_right (by rw [h0, Nat.succ_mul]; omega)]
      have : (r + 1) * t + i - row.length = r * t + i := by rw [h0, Nat.succ_mul]; omega
      rw [this, ih (fun row h => hrow row (List.mem_cons_of_mem _ h)) (by simpa using hr)]
      simp [tab]

theorem addConstants_ofFn {t : Nat} (rc : List (List F)) (hrow : ∀ row ∈ rc, row.length = t) {r : Nat}
    (hr : r < rc.length) (x : Fin t → F) :
    addConstants t rc.flatten (r * t, List.ofFn x) = some ((r + 1) * t, List.ofFn fun i => x i + tab rc r i) := by
  rw [ofFn_eq_tl 0 x]
  have := foldlM_range (fun (st : Nat × List F) i => do
      let x ← st.2[i]?
      let c ← rc.flatten[st.1]?
      let words ← setAt st.2 i (x + c)
      pure (st.1 + 1, words)) t
    (fun k => (r * t + k, tl t fun i => if i < k then ext0 0 x i + tab rc r i else ext0 0 x i)) (fun i hi => by
      simp only [tl_get _ hi, flatten_get rc hrow hr hi, Option.bind_eq_bind, Option.bind_some, setAt_tl _ _ hi,
        Option.pure_def, Option.some.injEq, Prod.mk.injEq]
      refine ⟨by omega, tl_congr fun j hj => ?_⟩
      rw [if_neg (by omega)]
      by_cases hij : j = i
      · subst hij; simp
      · rw [Function.update_of_ne hij]
        by_cases h : j < i
        · rw [if_pos h, if_pos (by omega)]
        · rw [if_neg h, if_neg (by omega)])
  unfold addConstants
  simp only [Nat.not_lt_zero, if_false] at this
  rw [Nat.add_zero] at this
  rw [this, tl_eq_ofFn]
  simp only [Option.some.injEq, Prod.mk.injEq]
  refine ⟨by rw [Nat.succ_mul], ?_⟩
  congr 1
  funext i
  simp

theorem sboxAll_ofFn {t : Nat} (alpha : Nat) (x : Fin t → F) :
    sboxAll t alpha (List.ofFn x) = some (List.ofFn fun i => x i ^ alpha) := by
  rw [ofFn_eq_tl 0 x]
  have := foldlM_range (fun (words : List F) i => do
      let x ← words[i]?
      setAt words i (x ^ alpha)) t
    (fun k => tl t fun i => if i < k then ext0 0 x i ^ alpha else ext0 0 x i) (fun i hi => by
      simp only [tl_get _ hi, Option.bind_eq_bind, Option.bind_some, setAt_tl _ _ hi, Option.some.injEq]
      refine tl_congr fun j hj => ?_
      rw [if_neg (by omega)]
      by_cases hij : j = i
      · subst hij; simp
      · rw [Function.update_of_ne hij]
        by_cases h : j < i
        · rw [if_pos h, if_pos (by omega)]
        · rw [if_neg h, if_neg (by omega)])
  unfold sboxAll
  simp only [Nat.not_lt_zero, if_false] at this
  rw [this, tl_eq_ofFn]
  congr 2
  funext i
  simp

theorem fullRound_ofFn {t : Nat} (alpha : Nat) (M : Matrix (Fin t) (Fin t) F) (rc : List (List F))
    (hrow : ∀ row ∈ rc, row.length = t) {r : Nat} (hr : r < rc.length) (x : Fin t → F) :
    fullRound t alpha (rowsOf M) rc.flatten (r * t, List.ofFn x) =
      some ((r + 1) * t, List.ofFn (poseidonFull M alpha (fun i => tab rc r i) x)) := by
  unfold fullRound
  simp only [addConstants_ofFn rc hrow hr, sboxAll_ofFn, matVec_rowsOf, Option.bind_eq_bind, Option.bind_some]
  rfl

theorem partialRound_ofFn {t : Nat} (ht : 0 < t) (alpha : Nat) (M : Matrix (Fin t) (Fin t) F) (rc : List (List F))
    (hrow : ∀ row ∈ rc, row.length = t) {r : Nat} (hr : r < rc.length) (x : Fin t → F) :
    partialRound t alpha (rowsOf M) rc.flatten (r * t, List.ofFn x) =
      some ((r + 1) * t, List.ofFn (poseidonPartial M alpha (fun i => tab rc r i) x)) := by
  unfold partialRound
  have h0 : (List.ofFn fun i => x i + tab rc r i)[0]? = some (x ⟨0, ht⟩ + tab rc r 0) := by
    rw [List.getElem?_ofFn]; simp [ht]
  have h1 : ∀ y, setAt (List.ofFn fun i => x i + tab rc r i) 0 y =
      some (List.ofFn fun i : Fin t => if i.val = 0 then y else x i + tab rc r i) := by
    intro y
    rw [ofFn_eq_tl 0, setAt_tl _ _ ht, tl_eq_ofFn]
    congr 2
    funext i
    by_cases hi : i.val = 0
    · rw [hi]; simp
    · rw [Function.update_of_ne hi]; simp [hi]
  simp only [addConstants_ofFn rc hrow hr, h0, h1, matVec_rowsOf, Option.bind_eq_bind, Option.bind_some]
  congr 3
  funext i
  unfold poseidonPartial
  congr 2
  funext j
  by_cases hj : j.val = 0
  · have : j = ⟨0, ht⟩ := Fin.ext hj
    subst this
    simp
  · simp [hj]

/-- A loop of the script: the counter advances by `t` per round. -/
theorem loop {S : Type _} (enc : S → List F) (t a : Nat) (f : Nat × List F → Option (Nat × List F)) (g : Nat → S → S) (n : Nat)
    (h : ∀ r, a ≤ r → r < a + n → ∀ x, f (r * t, enc x) = some ((r + 1) * t, enc (g r x))) (x : S) :
    (List.range n).foldlM (fun st _ => f st) (a * t, enc x) = some ((a + n) * t, enc (rounds g a n x)) := by
  have := foldlM_range (fun st _ => f st) n (fun k => ((a + k) * t, enc (rounds g a k x))) (fun i hi => by
    rw [h (a + i) (by omega) (by omega)]; rfl)
  simpa only [Nat.add_zero, rounds] using this

theorem poseidon_ofFn {t : Nat} (ht : 0 < t) (alpha R_F R_P : Nat) (M : Matrix (Fin t) (Fin t) F)
    (rc : List (List F)) (hrow : ∀ row ∈ rc, row.length = t) (hlen : R_F / 2 + R_P + R_F / 2 ≤ rc.length)
    (x : Fin t → F) :
    poseidon t alpha R_F R_P (rowsOf M) rc.flatten (List.ofFn x) =
      some (List.ofFn (Spec.poseidon M alpha (R_F / 2) R_P (tab rc) x)) := by
  unfold poseidon
  have hf : ∀ a, a + R_F / 2 ≤ rc.length → ∀ x : Fin t → F, _ := fun a ha => loop List.ofFn t a
    (fullRound t alpha (rowsOf M) rc.flatten) (fun r => poseidonFull M alpha (fun i => tab rc r i)) (R_F / 2)
    (fun r h1 h2 x => fullRound_ofFn alpha M rc hrow (by omega) x)
  have hp : ∀ x : Fin t → F, _ := loop List.ofFn t (R_F / 2)
    (partialRound t alpha (rowsOf M) rc.flatten) (fun r => poseidonPartial M alpha (fun i => tab rc r i)) R_P
    (fun r h1 h2 x => partialRound_ofFn ht alpha M rc hrow (by omega) x)
  have h0 := hf 0 (by omega)
  simp only [Nat.zero_mul, Nat.zero_add] at h0
  simp only [h0, hp, hf (R_F / 2 + R_P) (by omega), Option.bind_eq_bind, Option.bind_some, Option.pure_def]
  rfl

/-- What the script's `poseidon2` computes: constants on all positions in partial rounds. -/
theorem poseidon2_ofFn {t : Nat} (ht : 0 < t) (alpha R_F R_P : Nat) (ME MI : Matrix (Fin t) (Fin t) F)
    (rc : List (List F)) (hrow : ∀ row ∈ rc, row.length = t) (hlen : R_F / 2 + R_P + R_F / 2 ≤ rc.length)
    (x : Fin t → F) :
    poseidon2 t alpha R_F R_P (rowsOf ME) (rowsOf MI) rc.flatten (List.ofFn x) =
      some (List.ofFn (
        rounds (fun r => Spec.fullRound ME alpha (fun i : Fin t => tab rc r i)) (R_F / 2 + R_P) (R_F / 2)
          (rounds (fun r => poseidonPartial MI alpha (fun i : Fin t => tab rc r i)) (R_F / 2) R_P
            (rounds (fun r => Spec.fullRound ME alpha (fun i : Fin t => tab rc r i)) 0 (R_F / 2) (ME *ᵥ x))))) := by
  unfold poseidon2
  have hf : ∀ a, a + R_F / 2 ≤ rc.length → ∀ x : Fin t → F, _ := fun a ha => loop List.ofFn t a
    (fullRound t alpha (rowsOf ME) rc.flatten) (fun r => Spec.fullRound ME alpha (fun i => tab rc r i)) (R_F / 2)
    (fun r h1 h2 x => fullRound_ofFn alpha ME rc hrow (by omega) x)
  have hp : ∀ x : Fin t → F, _ := loop List.ofFn t (R_F / 2)
    (partialRound t alpha (rowsOf MI) rc.flatten) (fun r => poseidonPartial MI alpha (fun i => tab rc r i)) R_P
    (fun r h1 h2 x => partialRound_ofFn ht alpha MI rc hrow (by omega) x)
  have h0 := hf 0 (by omega)
  simp only [Nat.zero_mul, Nat.zero_add] at h0
  simp only [matVec_rowsOf, h0, hp, hf (R_F / 2 + R_P) (by omega), Option.bind_eq_bind, Option.bind_some, Option.pure_def]

theorem rounds_congr {S : Type _} (f g : Nat → S → S) (a n : Nat) (h : ∀ r, a ≤ r → r < a + n → f r = g r) (x : S) :
    rounds f a n x = rounds g a n x := by
  induction n with
  | zero => rfl
  | succ n ih => simp only [rounds, ih fun r h1 h2 => h r h1 (by omega), h (a + n) (by omega) (by omega)]

/-- If the constants of the partial rounds vanish outside position 0, the script's function is Poseidon2. -/
theorem poseidon2_eq_spec {t : Nat} (ht : 0 < t) (alpha R_F R_P : Nat) (ME MI : Matrix (Fin t) (Fin t) F)
    (rc : List (List F)) (hrow : ∀ row ∈ rc, row.length = t) (hlen : R_F / 2 + R_P + R_F / 2 ≤ rc.length)
    (hz : ∀ r, R_F / 2 ≤ r → r < R_F / 2 + R_P → ∀ i : Fin t, 0 < i.val → tab rc r i = 0) (x : Fin t → F) :
    poseidon2 t alpha R_F R_P (rowsOf ME) (rowsOf MI) rc.flatten (List.ofFn x) =
      some (List.ofFn (Spec.poseidon2 ME MI alpha (R_F / 2) R_P (tab rc) x)) := by
  rw [poseidon2_ofFn ht alpha R_F R_P ME MI rc hrow hlen]
  unfold Spec.poseidon2
  congr 3
  apply rounds_congr
  intro r h1 h2
  funext y
  unfold poseidonPartial Spec.partialRound
  congr 1
  funext i
  beta_reduce
  by_cases hi : i.val = 0
  · rw [if_pos hi, if_pos hi, hi]
  · rw [if_neg hi, if_neg hi, hz r h1 h2 i (by omega), add_zero]

/-- The matrix the script generates is the external matrix of the specification. -/
theorem generateMatrixFull_eq {t : Nat} (ht : Supported t) :
    generateMatrixFull t = some (rowsOf (externalMatrix t : Matrix (Fin t) (Fin t) F)) := by
  by_cases h4 : t < 4
  · have : t = 2 ∨ t = 3 := by unfold Supported at ht; omega
    rcases this with rfl | rfl
    · simp [generateMatrixFull, circulant, rowsOf, externalMatrix, List.range_succ, List.ofFn_succ]
    · simp [generateMatrixFull, circulant, rowsOf, externalMatrix, List.range_succ, List.ofFn_succ]
  · have hm : ∀ i j : Nat, ((mSmall.getD (i % 4) [] : List F)).getD (j % 4) 0 =
        (M4 ⟨i % 4, Nat.mod_lt _ (by decide)⟩ ⟨j % 4, Nat.mod_lt _ (by decide)⟩ : F) := by
      intro i j
      have hi : i % 4 < 4 := Nat.mod_lt _ (by decide)
      have hj : j % 4 < 4 := Nat.mod_lt _ (by decide)
      have key : ∀ a b : Nat, ∀ ha : a < 4, ∀ hb : b < 4,
          ((mSmall.getD a [] : List F)).getD b 0 = (M4 ⟨a, ha⟩ ⟨b, hb⟩ : F) := by
        intro a b ha hb
        interval_cases a <;> interval_cases b <;> rfl
      exact key _ _ hi hj
    have h2 : t ≠ 2 := by omega
    have h3 : t ≠ 3 := by omega
    have hmod : t % 4 = 0 := by unfold Supported at ht; omega
    unfold generateMatrixFull
    rw [if_neg h2, if_neg h3]
    have hrows : ∀ A : Nat → Nat → F, ((List.range t).map fun i => (List.range t).map fun j => A i j) =
        rowsOf (Matrix.of fun i j : Fin t => A i j) := by
      intro A
      unfold rowsOf
      apply List.ext_getElem
      · simp
      · intro i h1 h2
        simp only [List.getElem_map, List.getElem_range, List.getElem_ofFn]
        apply List.ext_getElem
        · simp
        · intro j h3 h4
          simp
    by_cases h : t = 4
    · subst h
      rw [if_pos rfl]
      simp [mSmall, rowsOf, externalMatrix, List.ofFn_succ, M4]
    · rw [if_neg h, if_pos hmod, hrows]
      congr 2
      ext i j
      simp only [hm, Matrix.of_apply, externalMatrix, if_neg h4, if_neg h]

end ZkHash.Sage
