import Verif.Theorems.ShippedOther
import Mathlib.Algebra.MvPolynomial.SchwartzZippel
import Mathlib.LinearAlgebra.Matrix.GeneralLinearGroup.Card

set_option autoImplicit false

/-!
# How many draws give a Neptune permutation that is a bijection: C80
-/

namespace ZkHash

variable {dbg : Bool}

open Spec Matrix

section count

variable {F : Type} [Field F] [DecidableEq F]

/-- `t` nonzero elements, the `i`-th after `Z i` zeros: what a generator delivers while `t` nonzero elements are drawn
from it. Every list that ends with its `t`-th nonzero element is of this form in exactly one way. -/
def Spec.afterZeros {t : Nat} (Z : Fin t → Nat) (N : Fin t → Fˣ) : List F :=
  (List.ofFn fun i => List.replicate (Z i) 0 ++ [(N i : F)]).flatten

/-- With a generator about to deliver exactly `s`, the constructor returns and the permutation of the parameter set it
returns is a bijection of the states of length `t`. -/
def NeptuneBijective (dbg : Bool) (t d rounds_f rounds_p : Nat) (s : List F) : Prop :=
  ∃ P, NeptuneParams.new dbg t d rounds_f rounds_p s = some (P, []) ∧ IsPermutation t (Neptune.permutation dbg P)

/-- Sending the even positions to the left and the odd ones to the right. -/
def parityEquiv (k : Nat) : Fin k ⊕ Fin k ≃ Fin (2 * k) where
  toFun := Sum.elim (fun a => ⟨2 * a, by omega⟩) (fun b => ⟨2 * b + 1, by omega⟩)
  invFun i := if i.val % 2 = 0 then Sum.inl ⟨i / 2, by omega⟩ else Sum.inr ⟨i / 2, by omega⟩
  left_inv x := by
    rcases x with a | b
    · have : (2 * a.val) % 2 = 0 := by omega
      simp
    · have h : (2 * b.val + 1) % 2 ≠ 0 := by omega
      have h' : (2 * b.val + 1) / 2 = b.val := by omega
      simp [h, h']
  right_inv i := by
    by_cases h : i.val % 2 = 0
    · simp only [h, if_true, Sum.elim_inl]
      exact Fin.ext (by simp; omega)
    · simp only [h, if_false, Sum.elim_inr]
      exact Fin.ext (by simp; omega)

theorem parityMatrix_det {k : Nat} (A B : Matrix (Fin k) (Fin k) F) : (parityMatrix A B).det = A.det * B.det := by
  rw [← Matrix.det_fromBlocks_zero₂₁ A 0 B, ← Matrix.det_reindex_self (parityEquiv k)]
  congr 1
  ext i j
  simp only [Matrix.reindex_apply, Matrix.submatrix_apply, parityEquiv, Equiv.coe_fn_symm_mk, parityMatrix]
  by_cases hi : i.val % 2 = 0 <;> by_cases hj : j.val % 2 = 0 <;> simp [hi, hj]
  all_goals (intro h; omega)

/-- Number of invertible pairs of blocks. -/
theorem card_blocks [Fintype F] (k : Nat) :
    Nat.card {A : Matrix (Fin k) (Fin k) F // A.det ≠ 0} = ∏ i : Fin k, (Fintype.card F ^ k - Fintype.card F ^ i.val) := by
  rw [← Matrix.card_GL_field]
  refine Nat.card_congr (Equiv.ofBijective
    (fun A => Matrix.GeneralLinearGroup.mkOfDetNeZero A.1 A.2) ⟨?_, ?_⟩)
  · intro A B h
    exact Subtype.ext (congrArg Units.val h)
  · intro g
    exact ⟨⟨g.1, (Matrix.isUnits_det_units g).ne_zero⟩, Units.ext rfl⟩

/-- The matrix with the drawn nonzero elements on the diagonal and 1 elsewhere. -/
def onesWith (t : Nat) {R : Type} [One R] (N : Fin t → R) : Matrix (Fin t) (Fin t) R := fun i j => if i = j then N i else 1

theorem onesWith_regular {t : Nat} : (onesWith (t + 1) (fun i : Fin (t + 1) => if i = 0 then (1 : F) else 2)).det ≠ 0 := by
  intro h
  obtain ⟨v, hv, h⟩ := Matrix.exists_mulVec_eq_zero_iff.mpr h
  have row : ∀ i, ∑ j, v j + (if i = 0 then 0 else v i) = 0 := by
    intro i
    have := congrFun h i
    simp only [Matrix.mulVec, dotProduct, onesWith, Pi.zero_apply] at this
    have e : ∀ j, (if i = j then if i = 0 then (1 : F) else 2 else 1) * v j =
        v j + if i = j then (if i = 0 then 0 else v j) else 0 := by
      intro j
      by_cases hj : i = j
      · subst hj
        by_cases hi : i = 0
        · simp [hi]
        · simp only [if_true, if_neg hi]; ring
      · simp [hj]
    rw [Finset.sum_congr rfl (fun j _ => e j), Finset.sum_add_distrib, Finset.sum_ite_eq, if_pos (Finset.mem_univ _)] at this
    exact this
  have h0 : ∑ j, v j = 0 := by simpa using row 0
  have hi : ∀ i, i ≠ 0 → v i = 0 := by
    intro i hi
    simpa [h0, hi] using row i
  apply hv
  funext i
  by_cases h : i = 0
  · subst h
    rw [Finset.sum_eq_single 0 (fun j _ hj => hi j hj) (by simp)] at h0
    exact h0
  · exact hi i h

theorem bad_diagonals [Fintype F] (t : Nat) (ht : 0 < t) :
    Nat.card {N : Fin t → Fˣ // (onesWith t fun i => (N i : F)).det = 0} ≤ t * (Fintype.card F - 1) ^ (t - 1) := by
  obtain ⟨t, rfl⟩ : ∃ u, t = u + 1 := ⟨t - 1, by omega⟩
  let M : Matrix (Fin (t + 1)) (Fin (t + 1)) (MvPolynomial (Fin (t + 1)) F) := onesWith (t + 1) MvPolynomial.X
  have heval : ∀ f : Fin (t + 1) → F, MvPolynomial.eval f M.det = (onesWith (t + 1) f).det := by
    intro f
    rw [RingHom.map_det]
    congr 1
    ext i j
    simp only [RingHom.mapMatrix_apply, Matrix.map_apply, M, onesWith]
    split <;> simp
  have hne : M.det ≠ 0 := by
    intro h
    refine onesWith_regular (F := F) (t := t) ?_
    rw [← heval, h, map_zero]
  have hdeg : M.det.totalDegree ≤ t + 1 := by
    rw [Matrix.det_apply]
    refine (MvPolynomial.totalDegree_finsetSum _ _).trans (Finset.sup_le fun σ _ => ?_)
    refine (MvPolynomial.totalDegree_smul_le _ _).trans ?_
    refine (MvPolynomial.totalDegree_finsetProd _ _).trans ?_
    refine (Finset.sum_le_card_nsmul _ _ 1 fun i _ => ?_).trans (by simp)
    simp only [M, onesWith]
    split
    · exact (MvPolynomial.totalDegree_X _).le
    · simp
  let S : Finset F := Finset.univ.erase 0
  have hS : S.card = Fintype.card F - 1 := by simp [S, Finset.card_univ]
  have hq : 0 < S.card := by
    have := Fintype.one_lt_card (α := F); omega
  have sz := MvPolynomial.schwartz_zippel_totalDegree hne S
  have hle : Nat.card {N : Fin (t + 1) → Fˣ // (onesWith (t + 1) fun i => (N i : F)).det = 0} ≤
      ((Fintype.piFinset fun _ : Fin (t + 1) => S).filter fun f => MvPolynomial.eval f M.det = 0).card := by
    rw [← Nat.card_eq_finsetCard]
    refine Nat.card_le_card_of_injective (fun N => ⟨fun i => (N.1 i : F), ?_⟩) ?_
    · rw [Finset.mem_filter, Fintype.mem_piFinset, heval]
      exact ⟨fun i => by simp [S], N.2⟩
    · intro N N' h
      refine Subtype.ext (funext fun i => Units.ext ?_)
      exact congrFun (congrArg Subtype.val h) i
  refine hle.trans ?_
  rw [← hS, Nat.add_sub_cancel]
  have hq' : (0 : ℚ≥0) < S.card := by exact_mod_cast hq
  rw [div_le_div_iff₀ (by positivity) hq', pow_succ, ← mul_assoc] at sz
  have sz := le_of_mul_le_mul_right sz hq'
  have : ((((Fintype.piFinset fun _ : Fin (t + 1) => S).filter fun f => MvPolynomial.eval f M.det = 0).card : ℕ) : ℚ≥0) ≤
      ((M.det.totalDegree * S.card ^ t : ℕ) : ℚ≥0) := by push_cast; exact sz
  exact (Nat.cast_le.mp this).trans (Nat.mul_le_mul_right _ hdeg)

theorem singular_blocks (q k : Nat) (hq : 1 < q) :
    q ^ (k * k) * (q - 1) ≤ (∏ i : Fin k, (q ^ k - q ^ i.val)) * (q - 1) + q ^ (k * k) := by
  have key : ∀ m ≤ k, (q ^ k : ℤ) ^ m * (q ^ k - ∑ i ∈ Finset.range m, (q : ℤ) ^ i) ≤
      q ^ k * ∏ i ∈ Finset.range m, ((q : ℤ) ^ k - q ^ i) := by
    intro m
    induction m with
    | zero => intro _; simp
    | succ m ih =>
      intro hm
      have h := ih (by omega)
      have hnn : (0 : ℤ) ≤ (q : ℤ) ^ k - q ^ m := by
        have : (q : ℤ) ^ m ≤ q ^ k := pow_le_pow_right₀ (by omega) (by omega)
        omega
      rw [Finset.prod_range_succ, ← mul_assoc, Finset.sum_range_succ]
      refine le_trans ?_ (mul_le_mul_of_nonneg_right h hnn)
      have hs : (0 : ℤ) ≤ ∑ i ∈ Finset.range m, (q : ℤ) ^ i := Finset.sum_nonneg fun i _ => by positivity
      have h2 : (0 : ℤ) ≤ ((q : ℤ) ^ k) ^ m * ((∑ i ∈ Finset.range m, (q : ℤ) ^ i) * q ^ m) := by positivity
      rw [pow_succ]
      nlinarith [h2]
  have h := key k le_rfl
  have hg : (∑ i ∈ Finset.range k, (q : ℤ) ^ i) * (q - 1) = q ^ k - 1 := geom_sum_mul (q : ℤ) k
  have hc : (((∏ i : Fin k, (q ^ k - q ^ i.val) : ℕ)) : ℤ) = ∏ i ∈ Finset.range k, ((q : ℤ) ^ k - q ^ i) := by
    rw [Finset.prod_range]
    push_cast
    refine Finset.prod_congr rfl fun i _ => ?_
    rw [Nat.cast_sub (Nat.pow_le_pow_right (by omega) (by omega))]
    push_cast
    rfl
  have hQ : (0 : ℤ) < (q : ℤ) ^ k := by positivity
  generalize (∏ i : Fin k, (q ^ k - q ^ i.val)) = G at hc ⊢
  zify [hq.le]
  rw [hc, pow_mul]
  set Q := (q : ℤ) ^ k
  set Pi := ∏ i ∈ Finset.range k, (Q - (q : ℤ) ^ i)
  set s := ∑ i ∈ Finset.range k, (q : ℤ) ^ i
  have hq1 : (0 : ℤ) ≤ (q : ℤ) - 1 := by omega
  have h3 := mul_le_mul_of_nonneg_right h hq1
  have h4 : Q ^ k * (Q - s) * ((q : ℤ) - 1) = Q ^ k * (Q * (q - 1) - (Q - 1)) := by rw [← hg]; ring
  rw [h4] at h3
  have h5 : 0 < Q ^ k := by positivity
  refine le_of_mul_le_mul_left ?_ hQ
  nlinarith

theorem afterZeros_filter {t : Nat} (Z : Fin t → Nat) (N : Fin t → Fˣ) :
    (afterZeros Z N).filter (· ≠ 0) = List.ofFn fun i => (N i : F) := by
  unfold afterZeros
  rw [List.filter_flatten, List.map_ofFn]
  have : (List.filter (fun x : F => decide (x ≠ 0))) ∘ (fun i => List.replicate (Z i) 0 ++ [(N i : F)]) =
      fun i => [(N i : F)] := by
    funext i
    simp [List.filter_append]
  rw [this]
  clear this
  induction t with
  | zero => rfl
  | succ t ih => simp [List.ofFn_succ, ih (fun i => Z i.succ) (fun i => N i.succ)]

theorem afterZeros_last {t : Nat} (Z : Fin t → Nat) (N : Fin t → Fˣ) : (afterZeros Z N).getLast? ≠ some 0 := by
  unfold afterZeros
  cases t with
  | zero => simp
  | succ t =>
    rw [List.ofFn_succ', List.concat_eq_append, List.flatten_append]
    simp

theorem afterZeros_succ {t : Nat} (Z : Fin (t + 1) → Nat) (N : Fin (t + 1) → Fˣ) :
    afterZeros Z N = List.replicate (Z 0) 0 ++ (N 0 : F) :: afterZeros (fun i => Z i.succ) (fun i => N i.succ) := by
  simp [afterZeros, List.ofFn_succ]

theorem zeros_split_inj {z z' : Nat} {u u' : Fˣ} {L L' : List F}
    (h : List.replicate z 0 ++ (u : F) :: L = List.replicate z' 0 ++ (u' : F) :: L') : z = z' ∧ u = u' ∧ L = L' := by
  induction z generalizing z' with
  | zero =>
    cases z' with
    | zero =>
      simp only [List.replicate_zero, List.nil_append, List.cons.injEq, Units.val_inj] at h
      exact ⟨rfl, h⟩
    | succ z' =>
      simp only [List.replicate_zero, List.nil_append, List.replicate_succ, List.cons_append, List.cons.injEq] at h
      exact absurd h.1 u.ne_zero
  | succ z ih =>
    cases z' with
    | zero =>
      simp only [List.replicate_zero, List.nil_append, List.replicate_succ, List.cons_append, List.cons.injEq] at h
      exact absurd h.1.symm u'.ne_zero
    | succ z' =>
      simp only [List.replicate_succ, List.cons_append, List.cons.injEq, true_and] at h
      obtain ⟨rfl, h'⟩ := ih h
      exact ⟨rfl, h'⟩

theorem zeros_split (L : List F) (h : L.filter (· ≠ 0) ≠ []) :
    ∃ (z : Nat) (u : Fˣ) (L' : List F), L = List.replicate z 0 ++ (u : F) :: L' := by
  induction L with
  | nil => simp at h
  | cons x L ih =>
    by_cases hx : x = 0
    · subst hx
      obtain ⟨z, u, L', rfl⟩ := ih (by simpa using h)
      exact ⟨z + 1, u, L', rfl⟩
    · exact ⟨0, Units.mk0 x hx, L, rfl⟩

/-- Every list that ends with its `t`-th nonzero element is `afterZeros Z N` for exactly one `Z` and one `N`: together
with C51, the theorems below speak about everything a generator can deliver to a call that returns. -/
theorem C80_afterZeros {t : Nat} (L : List F) (hlen : (L.filter (· ≠ 0)).length = t) (hlast : L.getLast? ≠ some 0) :
    ∃! x : (Fin t → Nat) × (Fin t → Fˣ), L = afterZeros x.1 x.2 := by
  induction t generalizing L with
  | zero =>
    obtain rfl : L = [] := by
      rw [List.length_eq_zero_iff, List.filter_eq_nil_iff] at hlen
      cases hL : L.getLast? with
      | none => exact List.getLast?_eq_none_iff.mp hL
      | some x =>
        have := hlen x (List.mem_of_getLast? hL)
        simp only [ne_eq, decide_not, Bool.not_eq_eq_eq_not, Bool.not_true, decide_eq_false_iff_not, not_not] at this
        rw [hL, this] at hlast
        exact absurd rfl hlast
    refine ⟨(Fin.elim0, Fin.elim0), by simp [afterZeros], fun y _ => Prod.ext (Subsingleton.elim _ _) (Subsingleton.elim _ _)⟩
  | succ t ih =>
    obtain ⟨z, u, L', rfl⟩ := zeros_split L (by intro h; rw [h] at hlen; simp at hlen)
    have h1 : (L'.filter (· ≠ 0)).length = t := by
      simpa [List.filter_append] using hlen
    have h2 : L'.getLast? ≠ some 0 := by
      intro h
      apply hlast
      rw [List.getLast?_append, List.getLast?_cons, h]
      rfl
    obtain ⟨⟨Z, N⟩, hZN, huniq⟩ := ih L' h1 h2
    refine ⟨(Fin.cons z Z, Fin.cons u N), ?_, ?_⟩
    · simp only [afterZeros_succ, Fin.cons_zero, Fin.cons_succ]
      rw [hZN]
    · rintro ⟨Z', N'⟩ h
      simp only [afterZeros_succ] at h
      obtain ⟨h0, h0', hL⟩ := zeros_split_inj h
      have := huniq (fun i => Z' i.succ, fun i => N' i.succ) hL
      obtain ⟨e1, e2⟩ := Prod.mk.inj this
      refine Prod.ext ?_ ?_
      · funext i
        refine Fin.cases ?_ (fun j => ?_) i
        · exact h0.symm
        · exact congrFun e1 j
      · funext i
        refine Fin.cases ?_ (fun j => ?_) i
        · exact h0'.symm
        · exact congrFun e2 j

/-- The parameter set made from the given draws, and when its permutation is a bijection. -/
theorem neptuneBijective_iff [Fintype F] {k d rounds_f rounds_p : Nat} (hk : 0 < k) (hd : d = 3 ∨ d = 5 ∨ d = 7)
    (heven : rounds_f % 2 = 0) (hp : rounds_p ≠ 0) (hfit : rounds_f + rounds_p < 2 ^ 64)
    (h5 : (5 : F) ≠ 0) (hcop : Nat.Coprime d (Fintype.card F - 1))
    {rc : List (List F)} (hrc : rc.length = rounds_f + rounds_p) (hrow : ∀ row ∈ rc, row.length = 2 * k)
    {E : List F} {A B : Matrix (Fin k) (Fin k) F} (hE : NeptuneParams.ExternalDrawn k E (rowsOf (parityMatrix A B)))
    (Z : Fin (2 * k) → Nat) (N : Fin (2 * k) → Fˣ) (γ : F) :
    NeptuneBijective dbg (2 * k) d rounds_f rounds_p (rc.flatten ++ (E ++ (afterZeros Z N ++ [γ]))) ↔
      A.det ≠ 0 ∧ B.det ≠ 0 ∧ (onesWith (2 * k) fun i => (N i : F)).det ≠ 0 := by
  let P : NeptuneParams F :=
    { t := 2 * k, d := d, rounds_f_beginning := rounds_f / 2, rounds_p := rounds_p, rounds_f_end := rounds_f / 2,
      rounds := (rounds_f + rounds_p) % 2 ^ 64, round_constants := rc, m_e := rowsOf (parityMatrix A B),
      mu := List.ofFn fun i => (N i : F) - 1, abc := (1, 1, γ), a_ := (1, 3, 4) }
  have hP : NeptuneParams.new dbg (2 * k) d rounds_f rounds_p (rc.flatten ++ (E ++ (afterZeros Z N ++ [γ]))) =
      some (P, []) := by
    refine C51_constructor_iff.mpr ⟨hd, heven, fun _ => hfit, rfl, rfl, rfl, rfl, rfl, rfl, ?_, hrow, ?_, rfl, E,
      afterZeros Z N, γ, rfl, rfl, ?_, afterZeros_last Z N, hE⟩
    · rw [Nat.mod_eq_of_lt hfit]; exact hrc
    · simp [P]
    · rw [afterZeros_filter, List.map_ofFn]
      congr 1
      funext i
      simp
  obtain ⟨M, hM, hiff⟩ := C26_bijective_iff (by omega) hP hfit
  obtain rfl : parityMatrix A B = M := by
    ext i j
    exact congrFun (List.ofFn_injective (congrFun (List.ofFn_injective hM) i)) j
  have hint : neptuneInternal (2 * k) (vec P.mu) = onesWith (2 * k) fun i => (N i : F) := by
    funext i j
    unfold neptuneInternal onesWith
    split
    · simp [P, vec, List.getD]
    · rfl
  rw [hint, parityMatrix_det] at hiff
  have h1 : NeptuneBijective dbg (2 * k) d rounds_f rounds_p (rc.flatten ++ (E ++ (afterZeros Z N ++ [γ]))) ↔
      IsPermutation (2 * k) (Neptune.permutation dbg P) := by
    constructor
    · rintro ⟨P', h, hb⟩
      rw [hP] at h
      cases h
      exact hb
    · exact fun h => ⟨P, hP, h⟩
  rw [h1, hiff, mul_ne_zero_iff]
  constructor
  · rintro ⟨⟨a, b⟩, -, h | h⟩
    · exact absurd h hp
    · exact ⟨a, b, h.1⟩
  · exact fun h => ⟨⟨h.1, h.2.1⟩, Or.inr h5, Or.inr ⟨h.2.2, hcop⟩⟩

/-- **C80**, widths 4 and 8. Fix everything the generator delivers except the `t` nonzero elements that make the
diagonal of the internal matrix: the round constants, the positions of the zeros that are thrown away, and `gamma`. Among
all choices of these `t` nonzero elements, at most a fraction `t / (q - 1)` gives a permutation that is not a bijection. -/
theorem C80_neptune_4_8 [Fintype F] {t d rounds_f rounds_p : Nat} (ht : t = 4 ∨ t = 8) (hd : d = 3 ∨ d = 5 ∨ d = 7)
    (heven : rounds_f % 2 = 0) (hp : rounds_p ≠ 0) (hfit : rounds_f + rounds_p < 2 ^ 64)
    (h3 : (3 : F) ≠ 0) (h5 : (5 : F) ≠ 0) (h7 : (7 : F) ≠ 0) (hcop : Nat.Coprime d (Fintype.card F - 1))
    (rc : List (List F)) (hrc : rc.length = rounds_f + rounds_p) (hrow : ∀ row ∈ rc, row.length = t)
    (Z : Fin t → Nat) (γ : F) :
    Nat.card {N : Fin t → Fˣ //
        ¬ NeptuneBijective dbg t d rounds_f rounds_p (rc.flatten ++ (afterZeros Z N ++ [γ]))} * (Fintype.card F - 1) ≤
      t * Nat.card (Fin t → Fˣ) := by
  have hu : Nat.card (Fin t → Fˣ) = (Fintype.card F - 1) ^ t := by
    rw [Nat.card_eq_fintype_card, Fintype.card_fun, Fintype.card_units, Fintype.card_fin]
  have hb := bad_diagonals (F := F) t (by omega)
  have key : ∀ N : Fin t → Fˣ, ¬ NeptuneBijective dbg t d rounds_f rounds_p (rc.flatten ++ (afterZeros Z N ++ [γ])) ↔
      (onesWith t fun i => (N i : F)).det = 0 := by
    rcases ht with rfl | rfl
    · intro N
      have hdet : (parityMatrix !![2, 1; 1, 2] !![1, 2; 2, 1] : Matrix (Fin (2 * 2)) (Fin (2 * 2)) F).det ≠ 0 := by
        rw [show (parityMatrix !![2, 1; 1, 2] !![1, 2; 2, 1] : Matrix (Fin (2 * 2)) (Fin (2 * 2)) F).det = -9 from
          Neptune.ext4_det, neg_ne_zero, show (9 : F) = 3 * 3 by norm_num]
        exact mul_ne_zero h3 h3
      rw [parityMatrix_det, mul_ne_zero_iff] at hdet
      have := neptuneBijective_iff (dbg := dbg) (k := 2) (by omega) hd heven hp hfit h5 hcop hrc hrow (E := [])
        (Or.inl ⟨rfl, rfl, rfl⟩) Z N γ
      rw [List.nil_append] at this
      rw [this, not_and, not_and]
      exact ⟨fun h => not_not.mp (h hdet.1 hdet.2), fun h _ _ => not_not.mpr h⟩
    · intro N
      have hdet : (neptuneExt8 : Matrix (Fin (2 * 4)) (Fin (2 * 4)) F).det ≠ 0 := by
        rw [Neptune.ext8_det, neg_ne_zero, show (1225 : F) = 5 * 5 * (7 * 7) by norm_num]
        exact mul_ne_zero (mul_ne_zero h5 h5) (mul_ne_zero h7 h7)
      unfold neptuneExt8 at hdet
      rw [parityMatrix_det, mul_ne_zero_iff] at hdet
      have := neptuneBijective_iff (dbg := dbg) (k := 4) (by omega) hd heven hp hfit h5 hcop hrc hrow (E := [])
        (Or.inr (Or.inl ⟨rfl, rfl, rfl⟩)) Z N γ
      rw [List.nil_append] at this
      rw [this, not_and, not_and]
      exact ⟨fun h => not_not.mp (h hdet.1 hdet.2), fun h _ _ => not_not.mpr h⟩
  rw [Nat.card_congr (Equiv.subtypeEquivRight key), hu]
  calc _ ≤ t * (Fintype.card F - 1) ^ (t - 1) * (Fintype.card F - 1) := Nat.mul_le_mul_right _ hb
    _ = t * (Fintype.card F - 1) ^ t := by
      rw [mul_assoc, ← pow_succ, Nat.sub_add_cancel (by omega)]

theorem card_arith {g c h b q bad m : Nat} (hc : c * q ≤ g + c) (hb : b * q ≤ m * (h + b))
    (hbad : g ^ 2 * h + bad = (g + c) * ((g + c) * (h + b))) :
    bad * q ≤ (m + 2) * ((g + c) * ((g + c) * (h + b))) := by
  have e : bad = g * g * b + (2 * g + c) * (h + b) * c := by nlinarith
  have h1 := Nat.mul_le_mul_left (g * g) hb
  have h2 := Nat.mul_le_mul_left ((2 * g + c) * (h + b)) hc
  calc bad * q = g * g * (b * q) + (2 * g + c) * (h + b) * (c * q) := by rw [e]; ring
    _ ≤ g * g * (m * (h + b)) + (2 * g + c) * (h + b) * (g + c) := Nat.add_le_add h1 h2
    _ ≤ g * g * (m * (h + b)) + (2 * g + c) * (h + b) * (g + c) +
        (m * (h + b) * (2 * g * c + c * c) + c * (g + c) * (h + b)) := Nat.le_add_right _ _
    _ = _ := by ring

/-- **C80**, other even widths `2k`, where the two `k × k` blocks of the external matrix are drawn as well. Fix the round
constants, the positions of the zeros that are thrown away, and `gamma`. The number of choices of the remaining drawn
elements that give a bijection is the square of the number of invertible `k × k` matrices times the number of choices of
the diagonal that make the internal matrix invertible. At most a fraction `(2k + 2) / (q - 1)` of the choices gives a
permutation that is not a bijection. -/
theorem C80_neptune_other [Fintype F] {k d rounds_f rounds_p : Nat} (hk : 0 < k) (h2 : k ≠ 2) (h4 : k ≠ 4)
    (hd : d = 3 ∨ d = 5 ∨ d = 7)
    (heven : rounds_f % 2 = 0) (hp : rounds_p ≠ 0) (hfit : rounds_f + rounds_p < 2 ^ 64)
    (h5 : (5 : F) ≠ 0) (hcop : Nat.Coprime d (Fintype.card F - 1))
    (rc : List (List F)) (hrc : rc.length = rounds_f + rounds_p) (hrow : ∀ row ∈ rc, row.length = 2 * k)
    (Z : Fin (2 * k) → Nat) (γ : F) :
    let good : Matrix (Fin k) (Fin k) F × Matrix (Fin k) (Fin k) F × (Fin (2 * k) → Fˣ) → Prop := fun x =>
      NeptuneBijective dbg (2 * k) d rounds_f rounds_p
        (rc.flatten ++ ((rowsOf x.1).flatten ++ (rowsOf x.2.1).flatten ++ (afterZeros Z x.2.2 ++ [γ])))
    Nat.card {x // good x} = (∏ i : Fin k, (Fintype.card F ^ k - Fintype.card F ^ i.val)) ^ 2 *
        Nat.card {N : Fin (2 * k) → Fˣ // (Matrix.of fun i j => if i = j then (N i : F) else 1).det ≠ 0} ∧
      Nat.card {x // ¬ good x} * (Fintype.card F - 1) ≤
        (2 * k + 2) * Nat.card (Matrix (Fin k) (Fin k) F × Matrix (Fin k) (Fin k) F × (Fin (2 * k) → Fˣ)) := by
  intro good
  have key : ∀ x, good x ↔ x.1.det ≠ 0 ∧ x.2.1.det ≠ 0 ∧ (onesWith (2 * k) fun i => (x.2.2 i : F)).det ≠ 0 := fun x =>
    neptuneBijective_iff hk hd heven hp hfit h5 hcop hrc hrow (Or.inr (Or.inr ⟨h2, h4, x.1, x.2.1, rfl, rfl⟩)) Z x.2.2 γ
  have hgood : Nat.card {x // good x} = (∏ i : Fin k, (Fintype.card F ^ k - Fintype.card F ^ i.val)) ^ 2 *
        Nat.card {N : Fin (2 * k) → Fˣ // (onesWith (2 * k) fun i => (N i : F)).det ≠ 0} := by
    rw [Nat.card_congr (Equiv.subtypeEquivRight key), sq, ← card_blocks, mul_assoc, ← Nat.card_prod, ← Nat.card_prod]
    exact Nat.card_congr
      { toFun := fun x => (⟨x.1.1, x.2.1⟩, ⟨x.1.2.1, x.2.2.1⟩, ⟨x.1.2.2, x.2.2.2⟩)
        invFun := fun y => ⟨(y.1.1, y.2.1.1, y.2.2.1), y.1.2, y.2.1.2, y.2.2.2⟩
        left_inv := fun _ => rfl
        right_inv := fun _ => rfl }
  refine ⟨hgood, ?_⟩
  have hq := Fintype.one_lt_card (α := F)
  have split : ∀ {α : Type} [Finite α] (p : α → Prop), Nat.card {x // p x} + Nat.card {x // ¬ p x} = Nat.card α := by
    intro α _ p
    classical
    rw [← Nat.card_sum]
    exact Nat.card_congr (Equiv.sumCompl p)
  have hbad := split good
  have hdiag := split fun N : Fin (2 * k) → Fˣ => (onesWith (2 * k) fun i => (N i : F)).det ≠ 0
  have hb := bad_diagonals (F := F) (2 * k) (by omega)
  have hsing := singular_blocks (Fintype.card F) k hq
  have hT : Nat.card (Matrix (Fin k) (Fin k) F) = Fintype.card F ^ (k * k) := by
    rw [Nat.card_eq_fintype_card]
    rw [show Fintype.card (Matrix (Fin k) (Fin k) F) = Fintype.card (Fin k → Fin k → F) from rfl]
    simp [pow_mul]
  have hg : ∏ i : Fin k, (Fintype.card F ^ k - Fintype.card F ^ i.val) ≤ Fintype.card F ^ (k * k) := by
    rw [← card_blocks, ← hT]
    exact Nat.card_le_card_of_injective _ Subtype.val_injective
  have hu : Nat.card (Fin (2 * k) → Fˣ) = (Fintype.card F - 1) ^ (2 * k) := by
    rw [Nat.card_eq_fintype_card, Fintype.card_fun, Fintype.card_units, Fintype.card_fin]
  have hbu : Nat.card {N : Fin (2 * k) → Fˣ // ¬ (onesWith (2 * k) fun i => (N i : F)).det ≠ 0} * (Fintype.card F - 1) ≤
      2 * k * Nat.card (Fin (2 * k) → Fˣ) := by
    rw [Nat.card_congr (Equiv.subtypeEquivRight fun N => not_not), hu]
    calc _ ≤ 2 * k * (Fintype.card F - 1) ^ (2 * k - 1) * (Fintype.card F - 1) := Nat.mul_le_mul_right _ hb
      _ = 2 * k * (Fintype.card F - 1) ^ (2 * k) := by
        rw [mul_assoc, ← pow_succ, Nat.sub_add_cancel (by omega)]
  rw [Nat.card_prod, Nat.card_prod, hT] at hbad ⊢
  rw [hgood] at hbad
  clear hgood key split hu hb hT
  generalize Nat.card {x // ¬ good x} = bad at *
  generalize Nat.card {N : Fin (2 * k) → Fˣ // ¬ (onesWith (2 * k) fun i => (N i : F)).det ≠ 0} = b at *
  generalize Nat.card {N : Fin (2 * k) → Fˣ // (onesWith (2 * k) fun i => (N i : F)).det ≠ 0} = h at *
  generalize Nat.card (Fin (2 * k) → Fˣ) = U at *
  generalize ∏ i : Fin k, (Fintype.card F ^ k - Fintype.card F ^ i.val) = g at *
  generalize Fintype.card F ^ (k * k) = T at *
  generalize Fintype.card F - 1 = q at *
  obtain ⟨c, rfl⟩ : ∃ c, T = g + c := ⟨T - g, by omega⟩
  subst hdiag
  exact card_arith (by rw [add_mul] at hsing; omega) hbu hbad

end count

/-- **C80.** The shipped Neptune parameter sets: whatever round constants and `gamma` are drawn and wherever zeros are
thrown away, at most a fraction `(t + 2) / (p - 1)` of the choices of the other drawn elements gives a permutation that
is not a bijection. -/
theorem C80_shipped (S : Shape) (hS : S ∈ Instances.neptune) [Fact S.modulus.Prime] (dbg : Bool)
    (rc : List (List (ZMod S.modulus))) (hrc : rc.length = S.rounds_f + S.rounds_p) (hrow : ∀ row ∈ rc, row.length = S.t)
    (Z : Fin S.t → Nat) (γ : ZMod S.modulus) :
    ((S.t = 4 ∨ S.t = 8) →
      Nat.card {N : Fin S.t → (ZMod S.modulus)ˣ //
          ¬ NeptuneBijective dbg S.t S.d S.rounds_f S.rounds_p (rc.flatten ++ (afterZeros Z N ++ [γ]))} * (S.modulus - 1) ≤
        S.t * Nat.card (Fin S.t → (ZMod S.modulus)ˣ)) ∧
    (S.t ≠ 4 → S.t ≠ 8 →
      Nat.card {x : Matrix (Fin (S.t / 2)) (Fin (S.t / 2)) (ZMod S.modulus) ×
            Matrix (Fin (S.t / 2)) (Fin (S.t / 2)) (ZMod S.modulus) × (Fin S.t → (ZMod S.modulus)ˣ) //
          ¬ NeptuneBijective dbg S.t S.d S.rounds_f S.rounds_p (rc.flatten ++
            ((rowsOf x.1).flatten ++ (rowsOf x.2.1).flatten ++ (afterZeros Z x.2.2 ++ [γ])))} * (S.modulus - 1) ≤
        (S.t + 2) * Nat.card (Matrix (Fin (S.t / 2)) (Fin (S.t / 2)) (ZMod S.modulus) ×
            Matrix (Fin (S.t / 2)) (Fin (S.t / 2)) (ZMod S.modulus) × (Fin S.t → (ZMod S.modulus)ˣ))) := by
  obtain ⟨-, hd, ht2, ht, heven, hfit⟩ := neptune_good S hS
  have hc := List.all_eq_true.mp shapes_checked S (List.mem_append_left _ hS)
  simp only [Bool.and_eq_true, bne_iff_ne, beq_iff_eq, List.contains_iff_mem] at hc
  have hp : S.rounds_p ≠ 0 := by
    have : (Instances.neptune.all fun S => S.rounds_p != 0) = true := by decide +kernel
    simpa using List.all_eq_true.mp this S hS
  have hle : 2013265921 ≤ S.modulus := by
    have h := hc.1.1
    simp only [Fields.declared, List.map_cons, List.map_nil, List.mem_cons, List.not_mem_nil, or_false] at h
    rcases h with h | h | h | h | h | h <;> rw [h] <;> decide
  have hne : ∀ n : Nat, 0 < n → n < 2013265921 → ((n : Nat) : ZMod S.modulus) ≠ 0 := by
    intro n h0 hn hz
    rw [ZMod.natCast_eq_zero_iff] at hz
    have := Nat.le_of_dvd h0 hz
    omega
  have h3 : (3 : ZMod S.modulus) ≠ 0 := by simpa using hne 3 (by decide) (by decide)
  have h5 : (5 : ZMod S.modulus) ≠ 0 := by simpa using hne 5 (by decide) (by decide)
  have h7 : (7 : ZMod S.modulus) ≠ 0 := by simpa using hne 7 (by decide) (by decide)
  have hcop : Nat.Coprime S.d (Fintype.card (ZMod S.modulus) - 1) := by rw [ZMod.card]; exact hc.2
  have hcard := ZMod.card S.modulus
  constructor
  · intro h48
    have := C80_neptune_4_8 (dbg := dbg) h48 hd heven hp hfit h3 h5 h7 hcop rc hrc hrow Z γ
    rwa [hcard] at this
  · intro n4 n8
    obtain ⟨k, hk⟩ : ∃ k, S.t = 2 * k := ⟨S.t / 2, by omega⟩
    generalize S.t = t at *
    subst hk
    have hk2 : 2 * k / 2 = k := by omega
    have := (C80_neptune_other (dbg := dbg) (k := k) (by omega) (by omega) (by omega) hd heven hp hfit h5 hcop rc hrc hrow Z γ).2
    rw [hcard] at this
    rw [hk2]
    exact this

/-- The shapes of both kinds exist: three of width 8, and some of width 24. -/
example : (Instances.neptune.filter fun S => S.t == 8).length = 3 ∧ (Instances.neptune.filter fun S => S.t == 24) ≠ [] := by
  decide +kernel

local instance fact11 : Fact (Nat.Prime 11) := ⟨by decide⟩

/-- A small field that meets the hypotheses of `C80_neptune_4_8`. -/
example (Z : Fin 4 → Nat) :
    Nat.card {N : Fin 4 → (ZMod 11)ˣ // ¬ NeptuneBijective dbg 4 3 2 1
      ((List.replicate 3 (List.replicate 4 (1 : ZMod 11))).flatten ++ (afterZeros Z N ++ [7]))} * (Fintype.card (ZMod 11) - 1) ≤
      4 * Nat.card (Fin 4 → (ZMod 11)ˣ) :=
  C80_neptune_4_8 (Or.inl rfl) (Or.inl rfl) rfl (by decide) (by decide) (by decide) (by decide) (by decide)
    (by rw [ZMod.card]; decide) _ rfl (by decide) Z 7

/-- A small field that meets the hypotheses of `C80_neptune_other`, width 6. -/
example (Z : Fin (2 * 3) → Nat) :=
  C80_neptune_other (F := ZMod 11) (dbg := dbg) (k := 3) (d := 3) (rounds_f := 2) (rounds_p := 1) (by decide) (by decide)
    (by decide) (Or.inl rfl) rfl (by decide) (by decide) (by decide) (by rw [ZMod.card]; decide)
    (List.replicate 3 (List.replicate 6 1)) rfl (by decide) Z 7

end ZkHash
