import Verif.Model.Instances
import Verif.Theorems.Poseidon
import Verif.Proofs.Poseidon2Check
import Mathlib.LinearAlgebra.Matrix.ToLinearEquiv

set_option autoImplicit false

/-!
# A decidable check of a Poseidon parameter table, and what it implies

The constructor needs nonzero leading minors of the matrix and of the powers of its lower-right block
(`C15_new_returns_iff`); the check eliminates without divisions, on lists of numbers modulo `p`.
-/

namespace ZkHash

open Spec Matrix

namespace PoseidonSource

/-! ## Strict evaluation -/

/-- `k n`, evaluating `n` first. -/
def force {α : Type _} (n : Nat) (k : Nat → α) : α :=
  match n with
  | 0 => k 0
  | m + 1 => k (Nat.succ m)

/-- `k l`, evaluating the entries first. -/
def forceRow {α : Type _} : List Nat → (List Nat → α) → α
  | [], k => k []
  | x :: xs, k => force x fun v => forceRow xs fun vs => k (v :: vs)

/-- `k m`, evaluating the entries first. -/
def forceMat {α : Type _} : List (List Nat) → (List (List Nat) → α) → α
  | [], k => k []
  | x :: xs, k => forceRow x fun v => forceMat xs fun vs => k (v :: vs)

@[simp] theorem force_eq {α : Type _} (n : Nat) (k : Nat → α) : force n k = k n := by
  cases n <;> rfl

@[simp] theorem forceRow_eq {α : Type _} (l : List Nat) (k : List Nat → α) : forceRow l k = k l := by
  induction l generalizing k with
  | nil => rfl
  | cons x xs ih => simp [forceRow, ih]

@[simp] theorem forceMat_eq {α : Type _} (l : List (List Nat)) (k : List (List Nat) → α) : forceMat l k = k l := by
  induction l generalizing k with
  | nil => rfl
  | cons x xs ih => simp [forceMat, ih]

/-! ## Matrices as lists -/

/-- `n` rows of `n` entries. -/
def IsSq (n : Nat) (L : List (List Nat)) : Prop := L.length = n ∧ ∀ row ∈ L, row.length = n

/-- The matrix over `ZMod p` of a list of rows. -/
def matOf (p n : Nat) (L : List (List Nat)) : Matrix (Fin n) (Fin n) (ZMod p) :=
  Matrix.of fun i j => (((L.getD i []).getD j 0 : Nat) : ZMod p)

/-- One elimination step on a row, with the pivot row `a :: r0`. -/
def elimRow (p a : Nat) (r0 : List Nat) : List Nat → List Nat
  | [] => []
  | b :: r => List.zipWith (fun x y => (a * x + (p - b % p) * y) % p) r r0

/-- All leading minors are nonzero: elimination without row exchanges never meets a zero pivot. -/
def minorsOk (p : Nat) : Nat → List (List Nat) → Bool
  | 0, _ => true
  | n + 1, L =>
    match L with
    | (a :: r0) :: rest => a % p != 0 && forceMat (rest.map (elimRow p a r0)) fun L' => minorsOk p n L'
    | _ => false

/-- Rows and columns from 1 on. -/
def hat (L : List (List Nat)) : List (List Nat) := (L.drop 1).map (·.drop 1)

/-- Sum of products. -/
def dot : List Nat → List Nat → Nat
  | x :: xs, y :: ys => x * y + dot xs ys
  | _, _ => 0

/-- Product with a matrix given by its columns. -/
def mulT (p : Nat) (L T : List (List Nat)) : List (List Nat) := L.map fun row => T.map fun col => dot row col % p

/-- The columns of a matrix. -/
def cols (n : Nat) (L : List (List Nat)) : List (List Nat) := (List.range n).map fun j => L.map fun row => row.getD j 0

/-- `cur`, `cur * T`, `cur * T * T`, ... (`n` matrices) have nonzero leading minors. -/
def powersOk (p s : Nat) (T : List (List Nat)) : Nat → List (List Nat) → Bool
  | 0, _ => true
  | n + 1, cur => minorsOk p s cur && forceMat (mulT p cur T) fun cur' => powersOk p s T n cur'

/-! ## The same functions, written for evaluation by the kernel

Direct recursors, evaluated entries, and the operations of `Nat` that the kernel computes natively. -/

namespace Fast

/-- `k n`, evaluating `n` first. -/
noncomputable def force (n : Nat) (k : Nat → Bool) : Bool :=
  Nat.rec (motive := fun _ => Bool) (k 0) (fun m _ => k (Nat.succ m)) n

/-- `k` of the eliminated row. -/
noncomputable def elimRow (p a nb : Nat) (r : List Nat) : List Nat → (List Nat → Bool) → Bool :=
  List.rec (motive := fun _ => List Nat → (List Nat → Bool) → Bool) (fun _ k => k [])
    (fun x _ ih r0 k => List.rec (motive := fun _ => Bool) (k []) (fun y r0' _ =>
      force (Nat.mod (Nat.add (Nat.mul a x) (Nat.mul nb y)) p) fun v => ih r0' fun vs => k (v :: vs)) r0) r

/-- `k` of the eliminated matrix. -/
noncomputable def elimMat (p a : Nat) (r0 : List Nat) (rest : List (List Nat)) : (List (List Nat) → Bool) → Bool :=
  List.rec (motive := fun _ => (List (List Nat) → Bool) → Bool) (fun k => k [])
    (fun row _ ih k => List.rec (motive := fun _ => Bool) false (fun b r _ =>
      force (Nat.sub p (Nat.mod b p)) fun nb => elimRow p a nb r r0 fun v => ih fun vs => k (v :: vs)) row) rest

/-- `PoseidonSource.minorsOk`. -/
noncomputable def minorsOk (p : Nat) (n : Nat) : List (List Nat) → Bool :=
  Nat.rec (motive := fun _ => List (List Nat) → Bool) (fun _ => true)
   (fun _ ih L => List.rec (motive := fun _ => Bool) false (fun row0 rest _ =>
      List.rec (motive := fun _ => Bool) false (fun a r0 _ =>
        Bool.rec (motive := fun _ => Bool) (elimMat p a r0 rest ih) false (Nat.beq (Nat.mod a p) 0)) row0) L) n

/-- `acc` plus the sum of products. -/
noncomputable def dot (x : List Nat) : List Nat → Nat → Nat :=
  List.rec (motive := fun _ => List Nat → Nat → Nat) (fun _ acc => acc)
   (fun x _ ih ys acc => List.rec (motive := fun _ => Nat) acc
      (fun y ys' _ => ih ys' (Nat.add acc (Nat.mul x y))) ys) x

/-- `k` of one row of the product. -/
noncomputable def mulRow (p : Nat) (row : List Nat) (T : List (List Nat)) : (List Nat → Bool) → Bool :=
  List.rec (motive := fun _ => (List Nat → Bool) → Bool) (fun k => k [])
   (fun col _ ih k => force (Nat.mod (dot row col 0) p) fun v => ih fun vs => k (v :: vs)) T

/-- `k` of the product. -/
noncomputable def mulT (p : Nat) (T : List (List Nat)) (L : List (List Nat)) : (List (List Nat) → Bool) → Bool :=
  List.rec (motive := fun _ => (List (List Nat) → Bool) → Bool) (fun k => k [])
   (fun row _ ih k => mulRow p row T fun v => ih fun vs => k (v :: vs)) L

/-- `PoseidonSource.powersOk`. -/
noncomputable def powersOk (p s : Nat) (T : List (List Nat)) (R : Nat) : List (List Nat) → Bool :=
  Nat.rec (motive := fun _ => List (List Nat) → Bool) (fun _ => true)
   (fun _ ih cur => Bool.rec (motive := fun _ => Bool) false (mulT p T cur ih) (minorsOk p s cur)) R

theorem force_eq (n : Nat) (k : Nat → Bool) : force n k = k n := by cases n <;> rfl

theorem elimRow_eq (p a nb : Nat) (r r0 : List Nat) (k : List Nat → Bool) :
    elimRow p a nb r r0 k = k (List.zipWith (fun x y => (a * x + nb * y) % p) r r0) := by
  induction r generalizing r0 k with
  | nil => rfl
  | cons x r ih =>
    cases r0 with
    | nil => rfl
    | cons y r0 =>
      show force _ (fun v => elimRow p a nb r r0 fun vs => k (v :: vs)) = _
      rw [force_eq, ih]
      rfl

theorem elimMat_eq (p a : Nat) (r0 : List Nat) (rest : List (List Nat)) (k : List (List Nat) → Bool)
    (h : elimMat p a r0 rest k = true) : k (rest.map (PoseidonSource.elimRow p a r0)) = true := by
  induction rest generalizing k with
  | nil => exact h
  | cons row rest ih =>
    cases row with
    | nil => cases h
    | cons b r =>
      have h : force (p - b % p) (fun nb => elimRow p a nb r r0 fun v => elimMat p a r0 rest fun vs => k (v :: vs)) =
        true := h
      rw [force_eq, elimRow_eq] at h
      exact ih _ h

theorem minorsOk_imp (p n : Nat) (L : List (List Nat)) (h : minorsOk p n L = true) :
    PoseidonSource.minorsOk p n L = true := by
  induction n generalizing L with
  | zero => rfl
  | succ n ih =>
    cases L with
    | nil => cases h
    | cons row0 rest =>
      cases row0 with
      | nil => cases h
      | cons a r0 =>
        have h : Bool.rec (motive := fun _ => Bool) (elimMat p a r0 rest (minorsOk p n)) false
          (Nat.beq (a % p) 0) = true := h
        simp only [PoseidonSource.minorsOk, forceMat_eq, Bool.and_eq_true, bne_iff_ne, ne_eq]
        cases hb : Nat.beq (a % p) 0 with
        | false =>
          rw [hb] at h
          refine ⟨fun hc => ?_, ih _ (elimMat_eq p a r0 rest _ h)⟩
          rw [hc] at hb
          cases hb
        | true => rw [hb] at h; cases h

theorem dot_eq (x y : List Nat) (acc : Nat) : dot x y acc = acc + PoseidonSource.dot x y := by
  induction x generalizing y acc with
  | nil => simp [PoseidonSource.dot]; rfl
  | cons a x ih =>
    cases y with
    | nil => simp [PoseidonSource.dot]; rfl
    | cons b y =>
      show dot x y (acc + a * b) = _
      rw [ih, PoseidonSource.dot]
      omega

theorem mulRow_eq (p : Nat) (row : List Nat) (T : List (List Nat)) (k : List Nat → Bool) :
    mulRow p row T k = k (T.map fun col => PoseidonSource.dot row col % p) := by
  induction T generalizing k with
  | nil => rfl
  | cons col T ih =>
    show force (dot row col 0 % p) (fun v => mulRow p row T fun vs => k (v :: vs)) = _
    rw [force_eq, ih, dot_eq, Nat.zero_add]
    rfl

theorem mulT_eq (p : Nat) (T L : List (List Nat)) (k : List (List Nat) → Bool) :
    mulT p T L k = k (PoseidonSource.mulT p L T) := by
  induction L generalizing k with
  | nil => rfl
  | cons row L ih =>
    show mulRow p row T (fun v => mulT p T L fun vs => k (v :: vs)) = _
    rw [mulRow_eq, ih]
    rfl

theorem powersOk_imp (p s : Nat) (T : List (List Nat)) (R : Nat) (cur : List (List Nat))
    (h : powersOk p s T R cur = true) : PoseidonSource.powersOk p s T R cur = true := by
  induction R generalizing cur with
  | zero => rfl
  | succ R ih =>
    have h : Bool.rec (motive := fun _ => Bool) false (mulT p T cur (powersOk p s T R)) (minorsOk p s cur) = true := h
    simp only [PoseidonSource.powersOk, forceMat_eq, Bool.and_eq_true]
    cases hm : minorsOk p s cur with
    | false => rw [hm] at h; cases h
    | true =>
      rw [hm] at h
      have h : mulT p T cur (powersOk p s T R) = true := h
      rw [mulT_eq] at h
      exact ⟨minorsOk_imp _ _ _ hm, ih _ h⟩

end Fast

/-- The check run by the kernel on every shipped table. -/
noncomputable def check (S : PoseidonSource) : Bool :=
  ((Fields.declared.map Prod.fst).contains S.modulus) &&
  (2 ≤ S.t) &&
  ([3, 5, 7].contains S.d) &&
  (S.rounds_f % 2 == 0) &&
  (0 < S.rounds_p) &&
  decide (S.rounds_f + S.rounds_p < 2 ^ 64) &&
  (S.rc.length == S.rounds_f + S.rounds_p) &&
  (S.rc.all fun row => row.length == S.t) &&
  (S.mds.length == S.t) &&
  (S.mds.all fun row => row.length == S.t) &&
  (Nat.gcd S.d (S.modulus - 1) == 1) &&
  Fast.minorsOk S.modulus S.t S.mds &&
  (forceMat (hat S.mds) fun H => forceMat (cols (S.t - 1) H) fun T =>
    Fast.powersOk S.modulus (S.t - 1) T S.rounds_p H)

/-! ## Soundness -/

theorem schur_det {m : Nat} {K : Type _} [Field K] (B : Matrix (Fin (m + 1)) (Fin (m + 1)) K) (h0 : B 0 0 ≠ 0)
    (hs : (Matrix.of fun i j : Fin m => B 0 0 * B i.succ j.succ - B i.succ 0 * B 0 j.succ).det ≠ 0) : B.det ≠ 0 := by
  intro hdet
  obtain ⟨v, hv, hBv⟩ := exists_mulVec_eq_zero_iff.mpr hdet
  apply hv
  have hrow : ∀ i, B i 0 * v 0 + ∑ j : Fin m, B i j.succ * v j.succ = 0 := by
    intro i
    have := congrFun hBv i
    simpa [Matrix.mulVec, dotProduct, Fin.sum_univ_succ] using this
  have htail : (fun j : Fin m => v j.succ) = 0 := by
    by_contra hne
    apply hs
    refine exists_mulVec_eq_zero_iff.mp ⟨_, hne, ?_⟩
    funext i
    simp only [Matrix.mulVec, dotProduct, Matrix.of_apply, Pi.zero_apply, sub_mul, Finset.sum_sub_distrib, mul_assoc,
      ← Finset.mul_sum]
    have h1 := hrow i.succ
    have h2 := hrow 0
    linear_combination B 0 0 * h1 - B i.succ 0 * h2
  funext j
  refine Fin.cases ?_ (fun j => congrFun htail j) j
  have h2 := hrow 0
  have : ∀ j : Fin m, v j.succ = 0 := fun j => congrFun htail j
  simp only [this, mul_zero, Finset.sum_const_zero, add_zero] at h2
  exact (mul_eq_zero.mp h2).resolve_left h0

theorem leadingMinor_schur {n : Nat} {K : Type _} [Field K] (A : Matrix (Fin (n + 1)) (Fin (n + 1)) K)
    (h0 : A 0 0 ≠ 0)
    (hs : ∀ k, ∀ hk : k < n, leadingMinor
      (Matrix.of fun i j : Fin n => A 0 0 * A i.succ j.succ - A i.succ 0 * A 0 j.succ) (k + 1) hk ≠ 0) :
    ∀ k, ∀ hk : k < n + 1, leadingMinor A (k + 1) hk ≠ 0 := by
  intro k hk
  unfold leadingMinor
  apply schur_det
  · exact h0
  · rcases k with _ | k
    · rw [Matrix.det_fin_zero]; exact one_ne_zero
    · have := hs k (by omega)
      unfold leadingMinor at this
      exact this

theorem matOf_getD {p n : Nat} {L : List (List Nat)} (i j : Fin n) :
    matOf p n L i j = (((L.getD i []).getD j 0 : Nat) : ZMod p) := rfl

theorem minorsOk_sound {p : Nat} [Fact p.Prime] : ∀ (n : Nat) (L : List (List Nat)), IsSq n L → minorsOk p n L = true →
    ∀ k, ∀ hk : k < n, leadingMinor (matOf p n L) (k + 1) hk ≠ 0 := by
  intro n
  induction n with
  | zero => intro L _ _ k hk; omega
  | succ n ih =>
    intro L hL h
    rcases L with _ | ⟨row0, rest⟩
    · simp [minorsOk] at h
    rcases row0 with _ | ⟨a, r0⟩
    · simp [minorsOk] at h
    simp only [minorsOk, forceMat_eq, Bool.and_eq_true, bne_iff_ne, ne_eq] at h
    obtain ⟨h1, h2⟩ := h
    obtain ⟨hlen, hrows⟩ := hL
    have hr0 : r0.length = n := by simpa using hrows (a :: r0) (by simp)
    have hrest : rest.length = n := by simpa using hlen
    have hrr : ∀ row ∈ rest, row.length = n + 1 := fun row hr => hrows row (List.mem_cons_of_mem _ hr)
    have hsq : IsSq n (rest.map (elimRow p a r0)) := by
      refine ⟨by simpa using hrest, ?_⟩
      intro row hr
      obtain ⟨r, hr', rfl⟩ := List.mem_map.mp hr
      have := hrr r hr'
      rcases r with _ | ⟨b, r⟩
      · simp at this
      · simp only [elimRow, List.length_zipWith]
        simp only [List.length_cons] at this
        omega
    have hih := ih _ hsq h2
    apply leadingMinor_schur
    · rw [matOf_getD]
      simp only [Fin.val_zero, List.getD_cons_zero]
      intro hc
      rw [ZMod.natCast_eq_zero_iff] at hc
      exact h1 (Nat.mod_eq_zero_of_dvd hc)
    · have e : (Matrix.of fun i j : Fin n =>
          matOf p (n + 1) ((a :: r0) :: rest) 0 0 * matOf p (n + 1) ((a :: r0) :: rest) i.succ j.succ -
            matOf p (n + 1) ((a :: r0) :: rest) i.succ 0 * matOf p (n + 1) ((a :: r0) :: rest) 0 j.succ) =
          matOf p n (rest.map (elimRow p a r0)) := by
        ext i j
        simp only [Matrix.of_apply, matOf_getD, Fin.val_zero, Fin.val_succ, List.getD_cons_zero, List.getD_cons_succ]
        have hi : i.val < rest.length := by omega
        have hri := hrr _ (List.getElem_mem hi)
        have e1 : rest.getD i [] = rest[i.val] := List.getD_eq_getElem _ _ hi
        have e2 : (rest.map (elimRow p a r0)).getD i [] = elimRow p a r0 rest[i.val] := by
          rw [List.getD_eq_getElem _ _ (by simpa using hi), List.getElem_map]
        rw [e1, e2]
        generalize rest[i.val] = row at hri
        rcases row with _ | ⟨b, r⟩
        · simp at hri
        · have hr : r.length = n := by simpa using hri
          simp only [elimRow, List.getD_cons_zero, List.getD_cons_succ]
          rw [List.getD_eq_getElem (l := List.zipWith _ _ _) _ (by simp; omega), List.getElem_zipWith,
            List.getD_eq_getElem _ _ (by omega), List.getD_eq_getElem _ _ (by omega), ZMod.natCast_mod]
          have hp : 0 < p := (Fact.out : p.Prime).pos
          have hb : ((p - b % p : Nat) : ZMod p) = -(b : ZMod p) := by
            rw [Nat.cast_sub (Nat.mod_lt _ hp).le, ZMod.natCast_self, ZMod.natCast_mod, zero_sub]
          push_cast [hb]
          ring
      rw [e]
      exact hih

theorem dot_eq {p n : Nat} (x y : List Nat) (hx : x.length = n) (hy : y.length = n) :
    ((dot x y : Nat) : ZMod p) = ∑ k : Fin n, ((x.getD k 0 : Nat) : ZMod p) * ((y.getD k 0 : Nat) : ZMod p) := by
  induction n generalizing x y with
  | zero =>
    rw [List.length_eq_zero_iff] at hx
    subst hx
    simp [dot]
  | succ n ih =>
    rcases x with _ | ⟨a, x⟩
    · simp at hx
    rcases y with _ | ⟨b, y⟩
    · simp at hy
    rw [Fin.sum_univ_succ]
    simp only [dot, Fin.val_zero, Fin.val_succ, List.getD_cons_zero, List.getD_cons_succ, Nat.cast_add, Nat.cast_mul]
    rw [ih x y (by simpa using hx) (by simpa using hy)]

theorem mulT_sq {p n : Nat} {L T : List (List Nat)} (hL : IsSq n L) (hT : IsSq n T) : IsSq n (mulT p L T) := by
  refine ⟨by simpa [mulT] using hL.1, ?_⟩
  intro row hr
  obtain ⟨r, _, rfl⟩ := List.mem_map.mp hr
  simpa using hT.1

theorem getD_length {n : Nat} {L : List (List Nat)} (hL : IsSq n L) (i : Fin n) : (L.getD i []).length = n := by
  rw [List.getD_eq_getElem _ _ (by rw [hL.1]; exact i.isLt)]
  exact hL.2 _ (List.getElem_mem _)

theorem mulT_eq {p n : Nat} {L T : List (List Nat)} (hL : IsSq n L) (hT : IsSq n T) :
    matOf p n (mulT p L T) = matOf p n L * (matOf p n T)ᵀ := by
  ext i j
  rw [Matrix.mul_apply, matOf_getD]
  have hi : i.val < L.length := by rw [hL.1]; exact i.isLt
  have hj : j.val < T.length := by rw [hT.1]; exact j.isLt
  have e : (mulT p L T).getD i [] = T.map fun col => dot (L.getD i []) col % p := by
    unfold mulT
    rw [List.getD_eq_getElem _ _ (by simpa using hi), List.getElem_map, List.getD_eq_getElem _ _ hi]
  rw [e]
  have e2 : (T.map fun col => dot (L.getD i []) col % p).getD j 0 = dot (L.getD i []) (T.getD j []) % p := by
    rw [List.getD_eq_getElem _ _ (by simpa using hj), List.getElem_map, List.getD_eq_getElem _ _ hj]
  rw [e2, ZMod.natCast_mod, dot_eq _ _ (getD_length hL i) (getD_length hT j)]
  rfl

theorem cols_sq {n : Nat} {L : List (List Nat)} (hL : IsSq n L) : IsSq n (cols n L) := by
  refine ⟨by simp [cols], ?_⟩
  intro row hr
  obtain ⟨j, _, rfl⟩ := List.mem_map.mp hr
  simpa using hL.1

theorem cols_eq {p n : Nat} {L : List (List Nat)} (hL : IsSq n L) : (matOf p n (cols n L))ᵀ = matOf p n L := by
  ext i j
  have hi : i.val < L.length := by rw [hL.1]; exact i.isLt
  rw [Matrix.transpose_apply, matOf_getD, matOf_getD]
  have e : (cols n L).getD j [] = L.map fun row => row.getD j 0 := by
    unfold cols
    rw [List.getD_eq_getElem _ _ (by simp), List.getElem_map, List.getElem_range]
  rw [e]
  have e2 : (L.map fun row => row.getD j 0).getD i 0 = (L.getD i []).getD j 0 := by
    rw [List.getD_eq_getElem _ _ (by simpa using hi), List.getElem_map, List.getD_eq_getElem L [] hi]
  rw [e2]

theorem hat_sq {s : Nat} {L : List (List Nat)} (hL : IsSq (s + 1) L) : IsSq s (hat L) := by
  refine ⟨by simp [hat, hL.1], ?_⟩
  intro row hr
  obtain ⟨r, hr', rfl⟩ := List.mem_map.mp hr
  have := hL.2 r (List.mem_of_mem_drop hr')
  simp [this]

theorem hat_eq {p s : Nat} {L : List (List Nat)} (hL : IsSq (s + 1) L) :
    matOf p s (hat L) = (matOf p (s + 1) L).submatrix Fin.succ Fin.succ := by
  ext i j
  rw [Matrix.submatrix_apply, matOf_getD, matOf_getD]
  have hi : i.val + 1 < L.length := by rw [hL.1]; omega
  have e : (hat L).getD i [] = (L.getD (i.val + 1) []).drop 1 := by
    unfold hat
    rw [List.getD_eq_getElem _ _ (by simp; omega), List.getElem_map, List.getElem_drop, List.getD_eq_getElem _ _ hi]
    congr 2
    omega
  rw [e]
  have hlen : (L.getD (i.val + 1) []).length = s + 1 := by
    have := getD_length hL i.succ
    simpa using this
  rw [Fin.val_succ, Fin.val_succ]
  generalize L.getD (i.val + 1) [] = row at hlen
  rcases row with _ | ⟨a, r⟩
  · simp at hlen
  · simp

theorem powersOk_sound {p s : Nat} [Fact p.Prime] {T : List (List Nat)} (hT : IsSq s T) :
    ∀ (R : Nat) (cur : List (List Nat)) (m : Nat), IsSq s cur → matOf p s cur = (matOf p s T)ᵀ ^ m →
      powersOk p s T R cur = true → ∀ n, m ≤ n → n < m + R → ∀ k, ∀ hk : k < s,
        leadingMinor ((matOf p s T)ᵀ ^ n) (k + 1) hk ≠ 0 := by
  intro R
  induction R with
  | zero => intro cur m _ _ _ n h1 h2; omega
  | succ R ih =>
    intro cur m hsq hcur h n h1 h2
    simp only [powersOk, forceMat_eq, Bool.and_eq_true] at h
    by_cases hn : n = m
    · subst hn
      have := minorsOk_sound s cur hsq h.1
      rwa [hcur] at this
    · exact ih (mulT p cur T) (m + 1) (mulT_sq hsq hT) (by rw [mulT_eq hsq hT, hcur, pow_succ]) h.2 n (by omega)
        (by omega)

end PoseidonSource

/-- What the check establishes. -/
structure PoseidonGood (S : PoseidonSource) : Prop where
  declared : S.modulus ∈ Fields.declared.map Prod.fst
  shaped : ∀ [Fact S.modulus.Prime], PoseidonShaped S.t S.rounds_f S.rounds_p S.rcF
  even : S.rounds_f % 2 = 0
  rc_len : S.rcF.length = S.rounds_f + S.rounds_p
  width : 2 ≤ S.t
  mds : S.mdsF = rowsOf (PoseidonSource.matOf S.modulus S.t S.mds)
  coprime : Nat.Coprime S.d (S.modulus - 1)
  returns : ∀ [Fact S.modulus.Prime] (dbg : Bool), ∃ P, S.params dbg = some P

theorem PoseidonSource.check_sound (S : PoseidonSource) (h : S.check = true) : PoseidonGood S := by
  simp only [check, Bool.and_eq_true, forceMat_eq, decide_eq_true_eq, beq_iff_eq] at h
  obtain ⟨⟨⟨⟨⟨⟨⟨⟨⟨⟨⟨⟨h1, h2⟩, h3⟩, h4⟩, h5⟩, hfit⟩, h6⟩, h7⟩, h8⟩, h9⟩, h10⟩, h11⟩, h12⟩ := h
  replace h11 := Fast.minorsOk_imp _ _ _ h11
  replace h12 := Fast.powersOk_imp _ _ _ _ _ h12
  have hdecl : S.modulus ∈ Fields.declared.map Prod.fst := by simpa using h1
  have hd : S.d = 3 ∨ S.d = 5 ∨ S.d = 7 := by simpa using h3
  have h7 : ∀ row ∈ S.rc, row.length = S.t := by simpa using h7
  have h9 : ∀ row ∈ S.mds, row.length = S.t := by simpa using h9
  have hsq : IsSq S.t S.mds := ⟨h8, h9⟩
  have hmds : S.mdsF = rowsOf (matOf S.modulus S.t S.mds) := by
    unfold mdsF rowsOf
    apply List.ext_getElem
    · simp [h8]
    intro i hi1 hi2
    have hi : i < S.mds.length := by simpa using hi1
    simp only [List.getElem_map, List.getElem_ofFn]
    apply List.ext_getElem
    · simp [h9 _ (List.getElem_mem hi)]
    intro j hj1 hj2
    simp only [List.getElem_map, List.getElem_ofFn, matOf_getD]
    rw [List.getD_eq_getElem _ _ hi, List.getD_eq_getElem _ _ (by simpa using hj1)]
  have hshaped : ∀ [Fact S.modulus.Prime], PoseidonShaped S.t S.rounds_f S.rounds_p S.rcF := by
    intro _
    refine ⟨by simp [rcF, h6], fun row hr => ?_, hfit⟩
    simp only [rcF, List.mem_map] at hr
    obtain ⟨r0, hr0, rfl⟩ := hr
    rw [List.length_map, h7 r0 hr0]
  refine ⟨hdecl, hshaped, h4, by simp [rcF, h6], h2, hmds, h10, ?_⟩
  intro _ dbg
  obtain ⟨s, hs⟩ : ∃ s, S.t = s + 1 := ⟨S.t - 1, by omega⟩
  unfold params
  rw [hmds]
  have hsh : PoseidonShaped S.t S.rounds_f S.rounds_p S.rcF := hshaped
  rw [hs] at hsq hsh h11 h12 ⊢
  rw [C15_new_returns_iff dbg (by omega) _ _ _ _ _ hsh]
  rw [Nat.add_sub_cancel] at h12
  have hT := cols_sq (hat_sq hsq)
  have hTT := cols_eq (p := S.modulus) (hat_sq hsq)
  refine ⟨hd, h4, h5, minorsOk_sound _ _ hsq h11, ?_⟩
  intro n hn1 hn2 k hk
  have := powersOk_sound hT S.rounds_p (hat S.mds) 1 (hat_sq hsq) (by rw [pow_one, hTT]) h12 n hn1 (by omega) k hk
  rwa [hTT, hat_eq hsq] at this

end ZkHash
