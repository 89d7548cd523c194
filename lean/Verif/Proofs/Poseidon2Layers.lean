import Verif.Model.Poseidon2
import Verif.Spec.Poseidon2
import Verif.Proofs.Basic
import Mathlib.Tactic.IntervalCases
import Mathlib.Tactic.FinCases

set_option autoImplicit false

/-!
# The layers of Poseidon2 as functions on `tl`
-/

namespace ZkHash

namespace Poseidon2

open Spec Matrix

variable {F : Type _} [CommRing F]

theorem sboxP_eq {d : Nat} (hd : d = 3 ∨ d = 5 ∨ d = 7) (x : F) : sboxP d x = some (x ^ d) := by
  rcases hd with rfl | rfl | rfl <;> simp only [sboxP, Option.some.injEq] <;> ring

theorem sboxP_none {d : Nat} (hd : ¬(d = 3 ∨ d = 5 ∨ d = 7)) (x : F) : sboxP d x = none := by
  unfold sboxP
  split <;> simp_all

theorem sbox_tl {d : Nat} (hd : d = 3 ∨ d = 5 ∨ d = 7) (n : Nat) (x : Nat → F) :
    sbox d (tl n x) = some (tl n fun i => x i ^ d) :=
  tl_mapM n x _ (fun y => y ^ d) fun i _ => sboxP_eq hd (x i)

theorem addAt_tl {n : Nat} (x : Nat → F) {i : Nat} (y : F) (h : i < n) :
    addAt (tl n x) i y = some (tl n (Function.update x i (x i + y))) := by
  simp [addAt, tl_get _ h, setAt_tl _ _ h]

theorem addRc_tl (n m : Nat) (x c : Nat → F) (h : n ≤ m) :
    addRc (tl n x) (tl m c) = tl n fun i => x i + c i := by
  unfold addRc
  rw [tl_zipWith, min_eq_left h]

/-- One row of `M4` applied to the block of four entries that contains `i`. -/
def m4row (x : Nat → F) (i : Nat) : F :=
  let s := i / 4 * 4
  match i % 4 with
  | 0 => 5 * x s + 7 * x (s + 1) + x (s + 2) + 3 * x (s + 3)
  | 1 => 4 * x s + 6 * x (s + 1) + x (s + 2) + x (s + 3)
  | 2 => x s + 3 * x (s + 1) + 5 * x (s + 2) + 7 * x (s + 3)
  | _ => x s + x (s + 1) + 4 * x (s + 2) + 6 * x (s + 3)

theorem matmulM4Step_tl {n : Nat} (x : Nat → F) {i : Nat} (h : 4 * i + 4 ≤ n) :
    matmulM4Step (tl n x) i =
      some (tl n fun j => if j / 4 = i then m4row x j else x j) := by
  unfold matmulM4Step
  simp only [tl_get x (show i * 4 < n by omega), tl_get x (show i * 4 + 1 < n by omega),
    tl_get x (show i * 4 + 2 < n by omega), tl_get x (show i * 4 + 3 < n by omega),
    setAt_tl _ _ (show i * 4 < n by omega), setAt_tl _ _ (show i * 4 + 1 < n by omega),
    setAt_tl _ _ (show i * 4 + 2 < n by omega), setAt_tl _ _ (show i * 4 + 3 < n by omega),
    Option.bind_eq_bind, Option.bind_some, Option.some.injEq]
  apply tl_congr
  intro j hj
  by_cases hji : j / 4 = i
  · rw [if_pos hji]
    obtain ⟨r, hr, rfl⟩ : ∃ r, r < 4 ∧ j = i * 4 + r := ⟨j % 4, Nat.mod_lt _ (by decide), by omega⟩
    have hs : (i * 4 + r) / 4 * 4 = i * 4 := by omega
    have hm : (i * 4 + r) % 4 = r := by omega
    unfold m4row
    rw [hs, hm]
    interval_cases r <;> simp <;> ring
  · rw [if_neg hji, Function.update_of_ne (by omega), Function.update_of_ne (by omega),
      Function.update_of_ne (by omega), Function.update_of_ne (by omega)]

theorem m4row_congr {x y : Nat → F} {i : Nat} (h : ∀ j, j / 4 = i / 4 → x j = y j) :
    m4row x i = m4row y i := by
  unfold m4row
  simp only [h (i / 4 * 4) (by omega), h (i / 4 * 4 + 1) (by omega), h (i / 4 * 4 + 2) (by omega),
    h (i / 4 * 4 + 3) (by omega)]

theorem matmulM4_tl {t : Nat} (x : Nat → F) (h : t % 4 = 0) :
    matmulM4 t (tl t x) = some (tl t (m4row x)) := by
  unfold matmulM4
  have := foldlM_range (matmulM4Step (F := F)) (t / 4)
    (fun k => tl t fun j => if j / 4 < k then m4row x j else x j) (by
      intro i hi
      rw [matmulM4Step_tl _ (by omega)]
      congr 1
      apply tl_congr
      intro j hj
      by_cases h1 : j / 4 = i
      · rw [if_pos h1, if_pos (by omega)]
        apply m4row_congr
        intro k hk
        rw [if_neg (by omega)]
      · rw [if_neg h1]
        by_cases h2 : j / 4 < i
        · rw [if_pos h2, if_pos (by omega)]
        · rw [if_neg h2, if_neg (by omega)])
  simp only [Nat.not_lt_zero, if_false] at this
  rw [this]
  congr 1
  apply tl_congr
  intro j hj
  rw [if_pos (by omega)]

theorem storedSums_tl {t : Nat} (x : Nat → F) (h : t % 4 = 0) (h4 : 4 ≤ t) :
    storedSums t (tl t x) = some (tl 4 fun l => ∑ j ∈ Finset.range (t / 4), x (4 * j + l)) := by
  unfold storedSums
  have hr : List.range 4 = tl 4 id := by simp [tl]
  rw [hr]
  apply tl_mapM (g := fun l => ∑ j ∈ Finset.range (t / 4), x (4 * j + l))
  intro l hl
  simp only [id]
  rw [tl_get x (show l < t by omega)]
  simp only [Option.bind_eq_bind, Option.bind_some]
  have := foldlM_range' (fun s j => (tl t x)[4 * j + l]?.bind fun a => pure (s + a)) 1 (t / 4 - 1)
    (fun k => ∑ j ∈ Finset.range (k + 1), x (4 * j + l)) (by
      intro i hi
      rw [tl_get x (show 4 * (1 + i) + l < t by omega), Finset.sum_range_succ _ (i + 1), Nat.add_comm 1 i]
      simp)
  simp only [zero_add, Finset.sum_range_one, mul_zero] at this
  rw [this, Nat.sub_add_cancel (by omega)]

/-- Output of the external layer. -/
def extFn (t : Nat) (x : Nat → F) : Nat → F :=
  if t < 4 then fun i => x i + ∑ j ∈ Finset.range t, x j
  else if t = 4 then m4row x
  else fun i => m4row x i + ∑ j ∈ Finset.range (t / 4), m4row x (4 * j + i % 4)

theorem matmulExternal_big {t : Nat} (x : Nat → F) (h : t = 8 ∨ t = 12 ∨ t = 16 ∨ t = 20 ∨ t = 24) :
    matmulExternal t (tl t x) = some (tl t (extFn t x)) := by
  have hunf : ∀ l : List F, matmulExternal t l = (do
      let input ← matmulM4 t l
      let stored ← storedSums t input
      (List.range input.length).foldlM (fun input i => do
        let s ← stored[i % 4]?
        addAt input i s) input) := by
    intro l; rcases h with rfl | rfl | rfl | rfl | rfl <;> rfl
  have ht : t % 4 = 0 := by omega
  rw [hunf, matmulM4_tl x ht]
  simp only [Option.bind_eq_bind, Option.bind_some, storedSums_tl (m4row x) ht (by omega), tl_length]
  have hext : extFn t x = fun i => m4row x i + ∑ j ∈ Finset.range (t / 4), m4row x (4 * j + i % 4) := by
    unfold extFn; rw [if_neg (by omega), if_neg (by omega)]
  have := foldlM_range (fun input i => (tl 4 fun l => ∑ j ∈ Finset.range (t / 4), m4row x (4 * j + l))[i % 4]?.bind
      fun s => addAt input i s) t
    (fun k => tl t fun j => if j < k then extFn t x j else m4row x j) (by
      intro i hi
      rw [tl_get _ (Nat.mod_lt _ (by decide)), Option.bind_some, addAt_tl _ _ hi]
      congr 1
      apply tl_congr
      intro j hj
      by_cases hji : j = i
      · subst hji
        rw [Function.update_self, if_neg (by omega), if_pos (by omega), hext]
      · rw [Function.update_of_ne hji]
        by_cases h2 : j < i
        · rw [if_pos h2, if_pos (by omega)]
        · rw [if_neg h2, if_neg (by omega)])
  simp only [Nat.not_lt_zero, if_false] at this
  rw [this]
  congr 1
  apply tl_congr
  intro j hj
  rw [if_pos hj]

theorem matmulExternal_tl {t : Nat} (x : Nat → F) (h : Supported t) :
    matmulExternal t (tl t x) = some (tl t (extFn t x)) := by
  rcases h with rfl | rfl | rfl | h
  · simp [matmulExternal, addAt_tl, tl_inj, extFn, Finset.sum_range_succ]
    intro i hi
    interval_cases i <;> simp
  · simp [matmulExternal, addAt_tl, tl_inj, extFn, Finset.sum_range_succ]
    intro i hi
    interval_cases i <;> simp
  · have : matmulExternal 4 (tl 4 x) = matmulM4 4 (tl 4 x) := rfl
    rw [this, matmulM4_tl x (by decide)]
    rfl
  · exact matmulExternal_big x h

/-- Output of the internal layer. -/
def intFn (t : Nat) (diag x : Nat → F) (i : Nat) : F :=
  (if t < 4 then (if i + 1 = t then 2 * x i else x i) else x i * diag i) + ∑ j ∈ Finset.range t, x j

theorem matmulInternal_big {t m : Nat} (diag x : Nat → F) (hm : t ≤ m)
    (h : t = 4 ∨ t = 8 ∨ t = 12 ∨ t = 16 ∨ t = 20 ∨ t = 24) :
    matmulInternal t (tl t x) (tl m diag) = some (tl t (intFn t diag x)) := by
  have hunf : ∀ l d : List F, matmulInternal t l d = (do
      let x0 ← l[0]?
      let sum := ((l.drop 1).take (t - 1)).foldl (· + ·) x0
      (List.range l.length).foldlM (fun input i => do
        let cur ← input[i]?
        let m ← d[i]?
        let input ← setAt input i (cur * m)
        addAt input i sum) l) := by
    intro l d; rcases h with rfl | rfl | rfl | rfl | rfl | rfl <;> rfl
  rw [hunf, tl_get x (show 0 < t by omega)]
  have hsum : (((tl t x).drop 1).take (t - 1)).foldl (· + ·) (x 0) = ∑ j ∈ Finset.range t, x j := by
    rw [tl_drop, tl_take, foldl_add_tl, min_self]
    conv_rhs => rw [show t = (t - 1) + 1 by omega, Finset.sum_range_succ']
    rw [add_comm]
    congr 1
    apply Finset.sum_congr rfl
    intro i _
    rw [Nat.add_comm]
  simp only [Option.bind_eq_bind, Option.bind_some, hsum, tl_length]
  have hint : ∀ i, intFn t diag x i = x i * diag i + ∑ j ∈ Finset.range t, x j := by
    intro i; unfold intFn; rw [if_neg (by omega)]
  have := foldlM_range (fun input i => input[i]?.bind fun cur => (tl m diag)[i]?.bind fun mm =>
      (setAt input i (cur * mm)).bind fun input => addAt input i (∑ j ∈ Finset.range t, x j)) t
    (fun k => tl t fun j => if j < k then intFn t diag x j else x j) (by
      intro i hi
      rw [tl_get _ hi, Option.bind_some, tl_get diag (show i < m by omega), Option.bind_some,
        setAt_tl _ _ hi, Option.bind_some, addAt_tl _ _ hi]
      congr 1
      apply tl_congr
      intro j hj
      by_cases hji : j = i
      · subst hji
        rw [Function.update_self, Function.update_self, if_neg (by omega), if_pos (by omega), hint]
      · rw [Function.update_of_ne hji, Function.update_of_ne hji]
        by_cases h2 : j < i
        · rw [if_pos h2, if_pos (by omega)]
        · rw [if_neg h2, if_neg (by omega)])
  simp only [Nat.not_lt_zero, if_false] at this
  rw [this]
  congr 1
  apply tl_congr
  intro j hj
  rw [if_pos hj]

theorem matmulInternal_tl {t : Nat} (diag : List F) (x : Nat → F) (h : Supported t)
    (hm : 4 ≤ t → t ≤ diag.length) :
    matmulInternal t (tl t x) diag = some (tl t (intFn t (vec diag) x)) := by
  have big : 4 ≤ t → (t = 4 ∨ t = 8 ∨ t = 12 ∨ t = 16 ∨ t = 20 ∨ t = 24) →
      matmulInternal t (tl t x) diag = some (tl t (intFn t (vec diag) x)) := by
    intro h4 h
    conv_lhs => rw [eq_tl diag 0]
    exact matmulInternal_big (vec diag) x (hm h4) h
  rcases h with rfl | rfl | h
  · simp [matmulInternal, addAt_tl, setAt_tl, tl_inj, intFn, Finset.sum_range_succ]
    intro i hi
    interval_cases i <;> simp; ring
  · simp [matmulInternal, addAt_tl, setAt_tl, tl_inj, intFn, Finset.sum_range_succ]
    intro i hi
    interval_cases i <;> simp; ring
  · exact big (by omega) h

end Poseidon2

end ZkHash
