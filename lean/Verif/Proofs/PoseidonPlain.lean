import Verif.Spec.Poseidon
import Verif.Proofs.MatOps
import Verif.Proofs.Poseidon2Spec

set_option autoImplicit false

/-!
# The plain Poseidon permutation
-/

namespace ZkHash

open Spec Matrix

set_option linter.unusedSectionVars false

theorem rounds_congr {S : Type _} (f g : Nat → S → S) (a n : Nat)
    (h : ∀ r, a ≤ r → r < a + n → ∀ x, f r x = g r x) (x : S) : rounds f a n x = rounds g a n x := by
  induction n with
  | zero => rfl
  | succ n ih =>
    show f (a + n) (rounds f a n x) = g (a + n) (rounds g a n x)
    rw [ih (fun r h1 h2 => h r h1 (by omega)), h (a + n) (by omega) (by omega)]

namespace Poseidon

variable {F : Type _} [CommRing F]

theorem sboxP_eq {d : Nat} (hd : d = 3 ∨ d = 5 ∨ d = 7) (x : F) : sboxP d x = some (x ^ d) := by
  rcases hd with rfl | rfl | rfl <;> simp [sboxP] <;> ring

theorem sbox_tl {d : Nat} (hd : d = 3 ∨ d = 5 ∨ d = 7) (n : Nat) (x : Nat → F) :
    sbox d (tl n x) = some (tl n fun i => x i ^ d) :=
  tl_mapM n x (sboxP d) (fun y => y ^ d) fun _ _ => sboxP_eq hd _

/-- `matmul` on a state that may be too short: the missing positions count as zero. -/
theorem matmul_cut {t m : Nat} (dbg : Bool) (M : Matrix (Fin t) (Fin t) F) (x : Nat → F) (n : Nat) (hm : m = min t n)
    (hd : dbg = true → t ≤ n) :
    matmul dbg (tl m x) (rowsOf M) = some (List.ofFn (M *ᵥ cut n fun i : Fin t => x i)) := by
  rw [rowsOf_eq_tm, poseidon_matmul_tm dbg _ _ t (by omega) (by intro h; have := hd h; omega), tl_eq_ofFn]
  congr 2
  funext i
  rw [show min t m = m by omega]
  have : ∀ c, (if h : i.val < t ∧ c < t then M ⟨i, h.1⟩ ⟨c, h.2⟩ else 0) * x c =
      (if h : i.val < t ∧ c < t then M ⟨i, h.1⟩ ⟨c, h.2⟩ else 0) * x c := fun _ => rfl
  rw [Matrix.mulVec, dotProduct]
  have e : ∑ j : Fin t, M i j * cut n (fun i : Fin t => x i) j =
      ∑ c ∈ Finset.range t, if c < m then (if h : i.val < t ∧ c < t then M ⟨i, h.1⟩ ⟨c, h.2⟩ else 0) * x c else 0 := by
    rw [Finset.sum_range]
    apply Finset.sum_congr rfl
    intro j _
    have hj := j.isLt
    have hi := i.isLt
    by_cases h : j.val < n
    · rw [if_pos (by omega), dif_pos ⟨hi, hj⟩]
      simp [cut, h]
    · rw [if_neg (by omega)]
      simp [cut, h]
  rw [e, ← Finset.sum_filter]
  apply Finset.sum_congr _ fun _ _ => rfl
  ext c
  simp only [Finset.mem_range, Finset.mem_filter]
  omega

theorem cut_full {t n : Nat} (h : t ≤ n) (x : Fin t → F) : cut n x = x := by
  funext i
  have := i.isLt
  simp [cut, show i.val < n by omega]

theorem addRc_row {t : Nat} (x : Fin t → F) (row : List F) :
    addRc (List.ofFn x) row = tl (min t row.length) fun i => ext0 0 x i + row.getD i 0 := by
  unfold addRc
  conv_lhs => rw [eq_tl row 0, ofFn_eq_tl 0 x]
  rw [tl_zipWith]

theorem fullRound_cut {t : Nat} (dbg : Bool) (P : PoseidonParams F) (M : Matrix (Fin t) (Fin t) F)
    (hM : P.mds = rowsOf M) (hd : P.d = 3 ∨ P.d = 5 ∨ P.d = 7) {r : Nat} (hr : r < P.round_constants.length)
    (hrow : dbg = true → t ≤ (P.round_constants.getD r []).length) (x : Fin t → F) :
    fullRound dbg P (List.ofFn x) r =
      some (List.ofFn (M *ᵥ cut (P.round_constants.getD r []).length
        fun i => (x i + tab P.round_constants r i) ^ P.d)) := by
  unfold fullRound
  have hget : P.round_constants[r]? = some (P.round_constants.getD r []) := getElem?_getD _ hr
  rw [hget]
  simp only [Option.bind_eq_bind, Option.bind_some]
  rw [addRc_row, sbox_tl hd, Option.bind_some, hM, matmul_cut dbg M _ _ rfl hrow]
  simp [tab]

theorem partialRound_cut {t : Nat} (ht : 0 < t) (dbg : Bool) (P : PoseidonParams F) (M : Matrix (Fin t) (Fin t) F)
    (hM : P.mds = rowsOf M) (hd : P.d = 3 ∨ P.d = 5 ∨ P.d = 7) {r : Nat} (hr : r < P.round_constants.length)
    (hrow : dbg = true → t ≤ (P.round_constants.getD r []).length)
    (hne : 1 ≤ (P.round_constants.getD r []).length) (x : Fin t → F) :
    partialRound dbg P (List.ofFn x) r =
      some (List.ofFn (M *ᵥ cut (P.round_constants.getD r []).length
        fun i => if i.val = 0 then (x i + tab P.round_constants r i) ^ P.d else x i + tab P.round_constants r i)) := by
  unfold partialRound
  have hget : P.round_constants[r]? = some (P.round_constants.getD r []) := getElem?_getD _ hr
  rw [hget]
  simp only [Option.bind_eq_bind, Option.bind_some]
  have h0 : 0 < min t (P.round_constants.getD r []).length := by omega
  rw [addRc_row, tl_get _ h0, Option.bind_some, sboxP_eq hd, Option.bind_some, setAt_tl _ _ h0, Option.bind_some,
    hM, matmul_cut dbg M _ _ rfl hrow]
  congr 4
  funext i
  by_cases hi : i.val = 0
  · simp [hi, tab, ext0, ht]
    have : i = ⟨0, ht⟩ := Fin.ext hi
    rw [this]
  · rw [Function.update_of_ne hi, if_neg hi]
    simp [tab]

/-- The plain permutation in both profiles, for rows of constants of any length in release builds. -/
theorem permutationNotOpt_cut {t : Nat} (ht : 0 < t) (dbg : Bool) (P : PoseidonParams F)
    (M : Matrix (Fin t) (Fin t) F) (hPt : P.t = t) (hM : P.mds = rowsOf M) (hd : P.d = 3 ∨ P.d = 5 ∨ P.d = 7)
    (rf : Nat) (hb : P.rounds_f_beginning = rf) (hr : P.rounds = rf + P.rounds_p + rf)
    (hlen : rf + P.rounds_p + rf ≤ P.round_constants.length) (hfit : rf + P.rounds_p < 2 ^ 64)
    (hrow : dbg = true → ∀ r, r < P.rounds → t ≤ (P.round_constants.getD r []).length)
    (hne : ∀ r, rf ≤ r → r < rf + P.rounds_p → 1 ≤ (P.round_constants.getD r []).length) (x : Fin t → F) :
    permutationNotOpt dbg P (List.ofFn x) =
      some (List.ofFn (poseidonCut M P.d rf P.rounds_p (fun r => (P.round_constants.getD r []).length)
        (tab P.round_constants) x)) := by
  unfold permutationNotOpt
  simp only [List.length_ofFn, hPt, beq_self_eq_true, assertThat, if_true, Option.bind_eq_bind, Option.bind_some, hb,
    hr, List.range_eq_range']
  rw [rounds_loop (fun z : Fin t → F => List.ofFn z) (fullRound dbg P) _ 0 rf
    fun r _ h y => fullRound_cut dbg P M hM hd (show r < P.round_constants.length by omega) (fun h' => hrow h' r (by omega)) y]
  simp only [Option.bind_some, uadd_fits dbg hfit]
  rw [rounds_loop (fun z : Fin t → F => List.ofFn z) (partialRound dbg P) _ rf _
    fun r h1 h2 y => partialRound_cut ht dbg P M hM hd (show r < P.round_constants.length by omega)
      (fun h' => hrow h' r (by omega)) (hne r h1 (by omega)) y]
  simp only [Option.bind_some]
  rw [rounds_loop (fun z : Fin t → F => List.ofFn z) (fullRound dbg P) _ _ _
    fun r _ h y => fullRound_cut dbg P M hM hd (show r < P.round_constants.length by omega) (fun h' => hrow h' r (by omega)) y]
  unfold poseidonCut
  rw [show rf + P.rounds_p - rf = P.rounds_p by omega,
    show rf + P.rounds_p + rf - (rf + P.rounds_p) = rf by omega]

theorem poseidonCut_eq {t : Nat} (M : Matrix (Fin t) (Fin t) F) (d rf rp : Nat) (len : Nat → Nat) (c : Nat → Nat → F)
    (h : ∀ r, r < rf + rp + rf → t ≤ len r) (x : Fin t → F) :
    poseidonCut M d rf rp len c x = poseidon M d rf rp c x := by
  unfold poseidonCut poseidon
  simp only
  rw [rounds_congr _ (fun r => poseidonFull M d (fun i : Fin t => c r i)) 0 rf
      (fun r _ hr y => by rw [cut_full (h r (by omega))]; rfl),
    rounds_congr _ (fun r => poseidonPartial M d (fun i : Fin t => c r i)) rf rp
      (fun r _ hr y => by rw [cut_full (h r (by omega))]; rfl),
    rounds_congr _ (fun r => poseidonFull M d (fun i : Fin t => c r i)) (rf + rp) rf
      (fun r _ hr y => by rw [cut_full (h r (by omega))]; rfl)]

end Poseidon

end ZkHash
