import Verif.Proofs.DegreeExact
import Verif.Theorems.NeptuneBranch
import Mathlib.Algebra.MvPolynomial.SchwartzZippel

set_option autoImplicit false

/-!
# How many external matrices of Neptune give less than the full degree
-/

namespace ZkHash.Degree

open Spec Matrix

section
variable {F : Type} [CommRing F] {t : Nat}

/-- `g` is the function of a polynomial of total degree at most `n`. -/
def DegF (n : Nat) (g : (Fin t → F) → F) : Prop :=
  ∃ p : MvPolynomial (Fin t) F, Deg n p ∧ ∀ x, g x = MvPolynomial.eval x p

theorem DegF.mono {n m : Nat} {g : (Fin t → F) → F} (h : DegF n g) (hnm : n ≤ m) : DegF m g := by
  obtain ⟨p, hp, h⟩ := h
  exact ⟨p, hp.mono hnm, h⟩

theorem DegF.const (n : Nat) (c : F) : DegF n (fun _ : Fin t → F => c) :=
  ⟨MvPolynomial.C c, Deg.const n c, fun x => by simp⟩

theorem DegF.coord (i : Fin t) : DegF 1 (fun x : Fin t → F => x i) := ⟨MvPolynomial.X i, Deg.coord i, fun x => by simp⟩

theorem DegF.add {n : Nat} {g h : (Fin t → F) → F} (hg : DegF n g) (hh : DegF n h) : DegF n (fun x => g x + h x) := by
  obtain ⟨p, hp, hg⟩ := hg
  obtain ⟨q, hq, hh⟩ := hh
  exact ⟨p + q, hp.add hq, fun x => by beta_reduce; rw [hg, hh, map_add]⟩

theorem DegF.sub {n : Nat} {g h : (Fin t → F) → F} (hg : DegF n g) (hh : DegF n h) : DegF n (fun x => g x - h x) := by
  obtain ⟨p, hp, hg⟩ := hg
  obtain ⟨q, hq, hh⟩ := hh
  exact ⟨p - q, hp.sub hq, fun x => by beta_reduce; rw [hg, hh, map_sub]⟩

theorem DegF.mul {n m : Nat} {g h : (Fin t → F) → F} (hg : DegF n g) (hh : DegF m h) : DegF (n + m) (fun x => g x * h x) := by
  obtain ⟨p, hp, hg⟩ := hg
  obtain ⟨q, hq, hh⟩ := hh
  exact ⟨p * q, hp.mul hq, fun x => by beta_reduce; rw [hg, hh, map_mul]⟩

theorem DegF.pow {n : Nat} (d : Nat) {g : (Fin t → F) → F} (hg : DegF n g) : DegF (d * n) (fun x => g x ^ d) := by
  obtain ⟨p, hp, hg⟩ := hg
  exact ⟨p ^ d, hp.pow d, fun x => by beta_reduce; rw [hg, map_pow]⟩

theorem DegF.of_eq {n : Nat} {g h : (Fin t → F) → F} (hg : DegF n g) (e : ∀ x, h x = g x) : DegF n h := by
  obtain ⟨p, hp, hg⟩ := hg
  exact ⟨p, hp, fun x => (e x).trans (hg x)⟩

theorem DegF.sum {n : Nat} {κ : Type} (s : Finset κ) {g : κ → (Fin t → F) → F} (hg : ∀ k, DegF n (g k)) :
    DegF n (fun x => ∑ k ∈ s, g k x) := by
  choose p hp e using hg
  exact ⟨∑ k ∈ s, p k, Deg.sum s hp, fun x => by simp only [map_sum, e]⟩

/-- All words of a vector. -/
def DegFV {u : Nat} (n : Nat) (f : (Fin t → F) → Fin u → F) : Prop := ∀ i, DegF n fun x => f x i

end

section
variable {F : Type} [Field F] [DecidableEq F]

/-- A polynomial function that is not zero everywhere has few zeros. -/
theorem card_zeros [Fintype F] {N n : Nat} {g : (Fin N → F) → F} (hg : DegF n g) (hne : ∃ w, g w ≠ 0) :
    Nat.card {w // g w = 0} * Fintype.card F ≤ n * Fintype.card F ^ N := by
  classical
  obtain ⟨p, hp, e⟩ := hg
  obtain ⟨w, hw⟩ := hne
  have hp0 : p ≠ 0 := fun h => hw (by rw [e, h, map_zero])
  have h := MvPolynomial.schwartz_zippel_totalDegree hp0 (Finset.univ : Finset F)
  rw [Finset.card_univ] at h
  have hq : (0 : ℚ≥0) < Fintype.card F := by exact_mod_cast Fintype.card_pos
  have hqN : (0 : ℚ≥0) < (Fintype.card F : ℚ≥0) ^ N := pow_pos hq N
  rw [div_le_div_iff₀ hqN hq] at h
  have h2 : (Finset.filter (fun f => MvPolynomial.eval f p = 0) (Fintype.piFinset fun _ : Fin N => (Finset.univ : Finset F))).card *
      Fintype.card F ≤ p.totalDegree * Fintype.card F ^ N := by exact_mod_cast h
  have h3 : Nat.card {w // g w = 0} =
      (Finset.filter (fun f => MvPolynomial.eval f p = 0) (Fintype.piFinset fun _ : Fin N => (Finset.univ : Finset F))).card := by
    rw [Nat.card_eq_fintype_card, Fintype.card_subtype]
    congr 1
    ext f
    simp [e]
  rw [h3]
  exact h2.trans (Nat.mul_le_mul_right _ hp)

/-- The entries of two square matrices. -/
def entries (k : Nat) : Fin (k * k + k * k) ≃ (Fin k × Fin k) ⊕ (Fin k × Fin k) :=
  finSumFinEquiv.symm.trans (Equiv.sumCongr finProdFinEquiv.symm finProdFinEquiv.symm)

/-- Two square matrices, from the list of their entries. -/
def blocksOf (F : Type) (k : Nat) : (Fin (k * k + k * k) → F) ≃ Matrix (Fin k) (Fin k) F × Matrix (Fin k) (Fin k) F :=
  (Equiv.arrowCongr (entries k) (Equiv.refl F)).trans ((Equiv.sumArrowEquivProdArrow _ _ _).trans
    (Equiv.prodCongr (Equiv.curry (Fin k) (Fin k) F) (Equiv.curry (Fin k) (Fin k) F)))

theorem deg_block1 {k : Nat} (i j : Fin k) : DegF 1 fun w : Fin (k * k + k * k) → F => (blocksOf F k w).1 i j :=
  DegF.coord ((entries k).symm (Sum.inl (i, j)))

theorem deg_block2 {k : Nat} (i j : Fin k) : DegF 1 fun w : Fin (k * k + k * k) → F => (blocksOf F k w).2 i j :=
  DegF.coord ((entries k).symm (Sum.inr (i, j)))

/-- The external matrix of the two blocks. -/
def extOf {k : Nat} (w : Fin (k * k + k * k) → F) : Matrix (Fin (2 * k)) (Fin (2 * k)) F :=
  parityMatrix (blocksOf F k w).1 (blocksOf F k w).2

theorem deg_ext {k : Nat} (i j : Fin (2 * k)) : DegF 1 fun w : Fin (k * k + k * k) → F => extOf w i j := by
  unfold extOf parityMatrix
  split
  · exact DegF.const 1 0
  · split
    · exact deg_block1 _ _
    · exact deg_block2 _ _

theorem deg_ext_mulVec {k n : Nat} {f : (Fin (k * k + k * k) → F) → Fin (2 * k) → F} (hf : DegFV n f) :
    DegFV (n + 1) fun w => extOf w *ᵥ f w := by
  intro i
  unfold Matrix.mulVec dotProduct
  exact DegF.sum _ fun j => ((deg_ext i j).mul (hf j)).mono (by omega)

/-- The degree of the leading coefficients after `m` external rounds, in the entries of the matrix: `1 + 4 + … + 4 ^ m`. -/
def coefDegree (m : Nat) : Nat := (4 ^ (m + 1) - 1) / 3

theorem coefDegree_succ (m : Nat) : coefDegree (m + 1) = 4 * coefDegree m + 1 := by
  unfold coefDegree
  have h : ∀ n : Nat, 4 ^ n % 3 = 1 := fun n => by rw [Nat.pow_mod]; simp
  have h1 := h (m + 1)
  have h2 : 4 ^ (m + 1 + 1) = 4 * 4 ^ (m + 1) := by rw [pow_succ]; ring
  omega

theorem deg_lead {k : Nat} (v : Fin (2 * k) → F) : ∀ m : Nat,
    DegFV (coefDegree m) fun w : Fin (k * k + k * k) → F => (leadExt (extOf w))^[m] (extOf w *ᵥ v) := by
  intro m
  induction m with
  | zero => exact deg_ext_mulVec (n := 0) (f := fun _ => v) fun i => DegF.const 0 (v i)
  | succ m ih =>
    rw [coefDegree_succ]
    have h := deg_ext_mulVec (f := fun w : Fin (k * k + k * k) → F => fun i : Fin (2 * k) =>
      ((leadExt (extOf w))^[m] (extOf w *ᵥ v) ⟨2 * (i / 2), by omega⟩ -
        (leadExt (extOf w))^[m] (extOf w *ᵥ v) ⟨2 * (i / 2) + 1, by omega⟩) ^ 4)
      fun i => ((ih ⟨2 * (i / 2), by omega⟩).sub (ih ⟨2 * (i / 2) + 1, by omega⟩)).pow 4
    intro i
    refine (h i).of_eq fun w => ?_
    beta_reduce
    rw [Function.iterate_succ_apply']
    rfl

/-- The blocks `2 J` and `J`, with `J` the matrix of ones, applied to a constant vector. -/
theorem ones_const {k : Nat} (z : F) (j : Fin (2 * k)) :
    (parityMatrix (Matrix.of fun _ _ : Fin k => (2 : F)) (Matrix.of fun _ _ => 1) *ᵥ fun _ => z) j =
      if j.val % 2 = 0 then 2 * (k * z) else k * z := by
  have hcase : j.val % 2 = 0 ∨ j.val % 2 = 1 := by omega
  rcases hcase with h | h
  · obtain ⟨l, hl, rfl⟩ : ∃ l : Fin k, ∃ hl : 2 * l.val + 0 < 2 * k, j = ⟨2 * l + 0, hl⟩ :=
      ⟨⟨j / 2, by omega⟩, by dsimp only; omega, Fin.ext (by dsimp only; omega)⟩
    rw [if_pos h, Branch.parity_even]
    simp [mulVec, dotProduct]
    ring
  · obtain ⟨l, hl, rfl⟩ : ∃ l : Fin k, ∃ hl : 2 * l.val + 1 < 2 * k, j = ⟨2 * l + 1, hl⟩ :=
      ⟨⟨j / 2, by omega⟩, by dsimp only; omega, Fin.ext (by dsimp only; omega)⟩
    rw [if_neg (by omega), Branch.parity_odd]
    simp [mulVec, dotProduct]

theorem ones_first {k : Nat} (hk : 0 < k) (j : Fin (2 * k)) :
    (parityMatrix (Matrix.of fun _ _ : Fin k => (2 : F)) (Matrix.of fun _ _ => 1) *ᵥ firstPair k) j =
      if j.val % 2 = 0 then 2 else 1 := by
  have hs : ∀ (a : F) (e : Nat) (he : e < 2), ∑ x : Fin k, a * firstPair k (⟨2 * x + e, by omega⟩ : Fin (2 * k)) = a := by
    intro a e he
    rw [Finset.sum_eq_single ⟨0, hk⟩]
    · unfold firstPair
      rw [if_pos (by dsimp only; omega), mul_one]
    · intro b _ hb
      have : b.val ≠ 0 := fun h => hb (Fin.ext h)
      unfold firstPair
      rw [if_neg (by dsimp only; omega), mul_zero]
    · intro h
      exact absurd (Finset.mem_univ _) h
  have hcase : j.val % 2 = 0 ∨ j.val % 2 = 1 := by omega
  rcases hcase with h | h
  · obtain ⟨l, hl, rfl⟩ : ∃ l : Fin k, ∃ hl : 2 * l.val + 0 < 2 * k, j = ⟨2 * l + 0, hl⟩ :=
      ⟨⟨j / 2, by omega⟩, by dsimp only; omega, Fin.ext (by dsimp only; omega)⟩
    rw [if_pos h, Branch.parity_even]
    exact hs 2 0 (by omega)
  · obtain ⟨l, hl, rfl⟩ : ∃ l : Fin k, ∃ hl : 2 * l.val + 1 < 2 * k, j = ⟨2 * l + 1, hl⟩ :=
      ⟨⟨j / 2, by omega⟩, by dsimp only; omega, Fin.ext (by dsimp only; omega)⟩
    rw [if_neg (by omega), Branch.parity_odd]
    exact hs 1 1 (by omega)

/-- The blocks `2 J` and `J`, with `J` the matrix of ones: the leading coefficients stay constant on the two halves. -/
theorem lead_ones {k : Nat} (hk : (k : F) ≠ 0) (h2 : (2 : F) ≠ 0) (m : Nat) (v : Fin (2 * k) → F) (a b : F) (hab : a ≠ b)
    (ha : a ≠ 0) (hb : b ≠ 0) (hv : ∀ i : Fin (2 * k), v i = if i.val % 2 = 0 then a else b) (i : Fin (2 * k)) :
    (leadExt (parityMatrix (Matrix.of fun _ _ : Fin k => (2 : F)) (Matrix.of fun _ _ => 1)))^[m] v i ≠ 0 := by
  induction m generalizing v a b with
  | zero =>
    show v i ≠ 0
    rw [hv]
    split
    · exact ha
    · exact hb
  | succ m ih =>
    rw [Function.iterate_succ_apply]
    have hz : (a - b) ^ 4 ≠ 0 := pow_ne_zero 4 (sub_ne_zero.mpr hab)
    refine ih _ (2 * (k * (a - b) ^ 4)) (k * (a - b) ^ 4) ?_ (mul_ne_zero h2 (mul_ne_zero hk hz)) (mul_ne_zero hk hz) ?_
    · intro h
      rw [two_mul] at h
      exact mul_ne_zero hk hz (left_eq_add.mp h.symm)
    · intro j
      have hj : ∀ l : Fin (2 * k), (v ⟨2 * (l / 2), by omega⟩ - v ⟨2 * (l / 2) + 1, by omega⟩) ^ 4 = (a - b) ^ 4 := fun l => by
        rw [hv, hv, if_pos (by dsimp only; omega), if_neg (by dsimp only; omega)]
      unfold leadExt
      simp only [hj]
      exact ones_const _ j

/-- The leading coefficients do not vanish: of word 0 after the first `rb` external rounds, and of all words at the end. -/
def FullLead {k : Nat} (rb : Nat) (ME : Matrix (Fin (2 * k)) (Fin (2 * k)) F) : Prop :=
  (∀ j i : Fin (2 * k), i.val = 0 → (leadExt ME)^[rb] (ME *ᵥ Pi.single j 1) i ≠ 0) ∧
  ∀ i, (leadExt ME)^[rb - 1] (ME *ᵥ firstPair k) i ≠ 0

theorem ones_single {k : Nat} (hk : (k : F) ≠ 0) (h2 : (2 : F) ≠ 0) (rb : Nat) (hrb : 0 < rb) (j i : Fin (2 * k)) :
    (leadExt (parityMatrix (Matrix.of fun _ _ : Fin k => (2 : F)) (Matrix.of fun _ _ => 1)))^[rb]
      (parityMatrix (Matrix.of fun _ _ : Fin k => (2 : F)) (Matrix.of fun _ _ => 1) *ᵥ Pi.single j 1) i ≠ 0 := by
  obtain ⟨m, rfl⟩ : ∃ m, rb = m + 1 := ⟨rb - 1, by omega⟩
  rw [Function.iterate_succ_apply]
  have hM : ∀ l : Fin (2 * k), (parityMatrix (Matrix.of fun _ _ : Fin k => (2 : F)) (Matrix.of fun _ _ => 1) *ᵥ Pi.single j 1) l =
      if l.val % 2 ≠ j.val % 2 then 0 else if l.val % 2 = 0 then 2 else 1 := fun l => by
    rw [mulVec_single_one]
    rfl
  obtain ⟨z, hz, e⟩ : ∃ z : F, z ≠ 0 ∧ ∀ l : Fin (2 * k),
      ((parityMatrix (Matrix.of fun _ _ : Fin k => (2 : F)) (Matrix.of fun _ _ => 1) *ᵥ Pi.single j 1) ⟨2 * (l / 2), by omega⟩ -
        (parityMatrix (Matrix.of fun _ _ : Fin k => (2 : F)) (Matrix.of fun _ _ => 1) *ᵥ Pi.single j 1)
          ⟨2 * (l / 2) + 1, by omega⟩) ^ 4 = z := by
    by_cases hj : j.val % 2 = 0
    · refine ⟨2 ^ 4, pow_ne_zero 4 h2, fun l => ?_⟩
      rw [hM, hM, if_neg (by dsimp only; omega), if_pos (by dsimp only; omega), if_pos (by dsimp only; omega)]
      ring
    · refine ⟨1, one_ne_zero, fun l => ?_⟩
      rw [hM, hM, if_pos (by dsimp only; omega), if_neg (by dsimp only; omega), if_neg (by dsimp only; omega)]
      ring
  refine lead_ones hk h2 m _ (2 * (k * z)) (k * z) ?_ (mul_ne_zero h2 (mul_ne_zero hk hz)) (mul_ne_zero hk hz) ?_ i
  · intro h
    rw [two_mul] at h
    exact mul_ne_zero hk hz (left_eq_add.mp h.symm)
  · intro l
    unfold leadExt
    simp only [e]
    exact ones_const z l

theorem card_not_full [Fintype F] {k : Nat} (hk : (k : F) ≠ 0) (h2 : (2 : F) ≠ 0) {rb : Nat} (hrb : 0 < rb) :
    Nat.card {x : Matrix (Fin k) (Fin k) F × Matrix (Fin k) (Fin k) F // ¬ FullLead rb (parityMatrix x.1 x.2)} *
        Fintype.card F ≤
      2 * k * (coefDegree rb + coefDegree (rb - 1)) * Fintype.card F ^ (k * k + k * k) := by
  classical
  have hk0 : 0 < k := Nat.pos_of_ne_zero fun h => hk (by rw [h, Nat.cast_zero])
  have e : Nat.card {x : Matrix (Fin k) (Fin k) F × Matrix (Fin k) (Fin k) F // ¬ FullLead rb (parityMatrix x.1 x.2)} =
      Nat.card {w : Fin (k * k + k * k) → F // ¬ FullLead rb (extOf w)} :=
    (Nat.card_congr (Equiv.subtypeEquiv (blocksOf F k) fun w => Iff.rfl)).symm
  rw [e]
  let g1 : Fin (2 * k) → (Fin (k * k + k * k) → F) → F := fun j w =>
    (leadExt (extOf w))^[rb] (extOf w *ᵥ Pi.single j 1) ⟨0, by omega⟩
  let g2 : Fin (2 * k) → (Fin (k * k + k * k) → F) → F := fun i w => (leadExt (extOf w))^[rb - 1] (extOf w *ᵥ firstPair k) i
  let w0 : Fin (k * k + k * k) → F := (blocksOf F k).symm (Matrix.of fun _ _ => 2, Matrix.of fun _ _ => 1)
  have hw0 : extOf w0 = parityMatrix (Matrix.of fun _ _ : Fin k => (2 : F)) (Matrix.of fun _ _ => 1) := by
    unfold extOf
    rw [Equiv.apply_symm_apply]
  have c1 : ∀ j, Nat.card {w // g1 j w = 0} * Fintype.card F ≤ coefDegree rb * Fintype.card F ^ (k * k + k * k) := fun j =>
    card_zeros (deg_lead (Pi.single j 1) rb _) ⟨w0, by
      show (leadExt (extOf w0))^[rb] (extOf w0 *ᵥ Pi.single j 1) _ ≠ 0
      rw [hw0]
      exact ones_single hk h2 rb hrb j _⟩
  have c2 : ∀ i, Nat.card {w // g2 i w = 0} * Fintype.card F ≤ coefDegree (rb - 1) * Fintype.card F ^ (k * k + k * k) := fun i =>
    card_zeros (deg_lead (firstPair k) (rb - 1) i) ⟨w0, by
      show (leadExt (extOf w0))^[rb - 1] (extOf w0 *ᵥ firstPair k) i ≠ 0
      rw [hw0]
      refine lead_ones hk h2 _ _ 2 1 ?_ h2 one_ne_zero (fun l => ?_) i
      · intro h
        have h : (1 : F) + 1 = 1 := by rw [one_add_one_eq_two]; exact h
        exact one_ne_zero (left_eq_add.mp h.symm)
      · exact ones_first hk0 l⟩
  have hsub : (Finset.univ.filter fun w : Fin (k * k + k * k) → F => ¬ FullLead rb (extOf w)) ⊆
      (Finset.univ.biUnion fun j => Finset.univ.filter fun w => g1 j w = 0) ∪
        (Finset.univ.biUnion fun i => Finset.univ.filter fun w => g2 i w = 0) := by
    intro w hw
    have hw := (Finset.mem_filter.mp hw).2
    rw [Finset.mem_union, Finset.mem_biUnion, Finset.mem_biUnion]
    by_contra hn
    refine hw ⟨fun j i hi h => hn (Or.inl ⟨j, Finset.mem_univ _, Finset.mem_filter.mpr ⟨Finset.mem_univ _, ?_⟩⟩),
      fun i h => hn (Or.inr ⟨i, Finset.mem_univ _, Finset.mem_filter.mpr ⟨Finset.mem_univ _, h⟩⟩)⟩
    have : i = ⟨0, by omega⟩ := Fin.ext hi
    rw [this] at h
    exact h
  have hcard : Nat.card {w : Fin (k * k + k * k) → F // ¬ FullLead rb (extOf w)} ≤
      (∑ j : Fin (2 * k), Nat.card {w // g1 j w = 0}) + ∑ i : Fin (2 * k), Nat.card {w // g2 i w = 0} := by
    rw [Nat.card_eq_fintype_card, Fintype.card_subtype]
    refine (Finset.card_le_card hsub).trans ((Finset.card_union_le _ _).trans (Nat.add_le_add ?_ ?_))
    · refine Finset.card_biUnion_le.trans (Finset.sum_le_sum fun j _ => ?_)
      rw [Nat.card_eq_fintype_card, Fintype.card_subtype]
    · refine Finset.card_biUnion_le.trans (Finset.sum_le_sum fun j _ => ?_)
      rw [Nat.card_eq_fintype_card, Fintype.card_subtype]
  refine (Nat.mul_le_mul_right _ hcard).trans ?_
  rw [add_mul, Finset.sum_mul, Finset.sum_mul]
  refine (Nat.add_le_add (Finset.sum_le_sum fun j _ => c1 j) (Finset.sum_le_sum fun i _ => c2 i)).trans (le_of_eq ?_)
  simp only [Finset.sum_const, Finset.card_univ, Fintype.card_fin, smul_eq_mul]
  ring

end

end ZkHash.Degree
