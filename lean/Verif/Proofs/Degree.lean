import Verif.Spec.Poseidon
import Verif.Spec.Poseidon2
import Verif.Spec.Gmimc
import Verif.Spec.Neptune
import Mathlib.Algebra.MvPolynomial.Degrees
import Mathlib.Algebra.Polynomial.BigOperators
import Mathlib.Algebra.Polynomial.Degree.Lemmas
import Mathlib.Algebra.Polynomial.Eval.Degree
import Mathlib.Data.ZMod.Basic
import Mathlib.Algebra.Field.ZMod
import Mathlib.Data.List.GetD

set_option autoImplicit false

/-!
# Degrees of the words of a permutation, as polynomials in the words of the input
-/

namespace ZkHash

open Spec Matrix

namespace Degree

section upper
open MvPolynomial (C X)
variable {F : Type} [CommRing F] {t u : Nat}

/-- A polynomial of total degree at most `n`. -/
def Deg (n : Nat) (p : MvPolynomial (Fin t) F) : Prop := p.totalDegree ≤ n

theorem Deg.mono {n m : Nat} {p : MvPolynomial (Fin t) F} (h : Deg n p) (hnm : n ≤ m) : Deg m p := Nat.le_trans h hnm

theorem Deg.const (n : Nat) (c : F) : Deg n (C c : MvPolynomial (Fin t) F) := by
  unfold Deg
  rw [MvPolynomial.totalDegree_C]
  exact Nat.zero_le n

theorem Deg.coord (i : Fin t) : Deg 1 (X i : MvPolynomial (Fin t) F) := by
  unfold Deg
  rcases subsingleton_or_nontrivial F with h | h
  · rw [Subsingleton.elim (X i : MvPolynomial (Fin t) F) 0]; simp
  · rw [MvPolynomial.totalDegree_X]

theorem Deg.add {n : Nat} {p q : MvPolynomial (Fin t) F} (hp : Deg n p) (hq : Deg n q) : Deg n (p + q) :=
  (MvPolynomial.totalDegree_add p q).trans (max_le hp hq)

theorem Deg.mul {n m : Nat} {p q : MvPolynomial (Fin t) F} (hp : Deg n p) (hq : Deg m q) : Deg (n + m) (p * q) :=
  (MvPolynomial.totalDegree_mul p q).trans (Nat.add_le_add hp hq)

theorem Deg.smul {n : Nat} (c : F) {p : MvPolynomial (Fin t) F} (hp : Deg n p) : Deg n (C c * p) := by
  have := (Deg.const 0 c).mul hp
  rwa [Nat.zero_add] at this

theorem Deg.num {n : Nat} (c : Nat) [c.AtLeastTwo] {p : MvPolynomial (Fin t) F} (hp : Deg n p) :
    Deg n (OfNat.ofNat c * p) := by
  rw [← map_ofNat (C : F →+* MvPolynomial (Fin t) F) c]
  exact hp.smul _

theorem Deg.sub {n : Nat} {p q : MvPolynomial (Fin t) F} (hp : Deg n p) (hq : Deg n q) : Deg n (p - q) := by
  have := hp.add (hq.smul (-1))
  rwa [map_neg, map_one, neg_one_mul, ← sub_eq_add_neg] at this

theorem Deg.sum {n : Nat} {κ : Type} (s : Finset κ) {p : κ → MvPolynomial (Fin t) F} (hp : ∀ k, Deg n (p k)) :
    Deg n (∑ k ∈ s, p k) := by
  classical
  induction s using Finset.induction_on with
  | empty => rw [Finset.sum_empty, ← map_zero C]; exact Deg.const n 0
  | insert k s hk ih => rw [Finset.sum_insert hk]; exact (hp k).add ih

theorem Deg.pow {n : Nat} (d : Nat) {p : MvPolynomial (Fin t) F} (hp : Deg n p) : Deg (d * n) (p ^ d) :=
  (MvPolynomial.totalDegree_pow p d).trans (Nat.mul_le_mul_left d hp)

/-- All words of a vector. -/
def DegV (n : Nat) (f : Fin u → MvPolynomial (Fin t) F) : Prop := ∀ i, Deg n (f i)

theorem DegV.mulVec {n v : Nat} (M : Matrix (Fin u) (Fin v) F) {f : Fin v → MvPolynomial (Fin t) F} (hf : DegV n f) :
    DegV n (M.map C *ᵥ f) := by
  intro i
  unfold Matrix.mulVec dotProduct
  exact Deg.sum _ fun j => (hf j).smul _

/-- A step multiplies the degree by at most `d`. -/
def Step (d : Nat) (g : (Fin u → MvPolynomial (Fin t) F) → Fin u → MvPolynomial (Fin t) F) : Prop :=
  ∀ n f, DegV n f → DegV (d * n) (g f)

theorem Step.rounds {d : Nat} {g : Nat → (Fin u → MvPolynomial (Fin t) F) → Fin u → MvPolynomial (Fin t) F}
    (hg : ∀ r, Step d (g r)) (a : Nat) : ∀ k, Step (d ^ k) (Spec.rounds g a k) := by
  intro k
  induction k with
  | zero => intro n f hf; simpa [Spec.rounds] using hf
  | succ k ih =>
    intro n f hf
    have := hg (a + k) _ _ (ih n f hf)
    rw [pow_succ', Nat.mul_assoc]
    exact this

theorem Step.comp {d e : Nat} {g h : (Fin u → MvPolynomial (Fin t) F) → Fin u → MvPolynomial (Fin t) F} (hg : Step d g)
    (hh : Step e h) : Step (d * e) fun x => h (g x) := by
  intro n f hf
  have := hh _ _ (hg n f hf)
  rw [Nat.mul_comm d, Nat.mul_assoc]
  exact this

theorem Step.full {d : Nat} (M : Matrix (Fin u) (Fin u) F) (c : Fin u → F) :
    Step (t := t) d (fullRound (M.map C) d fun i => C (c i)) := by
  intro n f hf
  exact DegV.mulVec M fun i => ((hf i).add (Deg.const n (c i))).pow d

theorem Step.part {d : Nat} (hd : 0 < d) (M : Matrix (Fin u) (Fin u) F) (c0 : F) :
    Step (t := t) d (partialRound (M.map C) d (C c0)) := by
  intro n f hf
  refine DegV.mulVec M fun i => ?_
  by_cases h : i.val = 0
  · simp only [h, if_true]; exact ((hf i).add (Deg.const n c0)).pow d
  · simp only [h, if_false]; exact (hf i).mono (Nat.le_mul_of_pos_left n hd)

theorem Step.poseidonPart {d : Nat} (hd : 0 < d) (M : Matrix (Fin u) (Fin u) F) (c : Fin u → F) :
    Step (t := t) d (poseidonPartial (M.map C) d fun i => C (c i)) := by
  intro n f hf
  refine DegV.mulVec M fun i => ?_
  by_cases h : i.val = 0
  · simp only [h, if_true]; exact ((hf i).add (Deg.const n (c i))).pow d
  · simp only [h, if_false]; exact ((hf i).add (Deg.const n (c i))).mono (Nat.le_mul_of_pos_left n hd)

theorem Step.linear (M : Matrix (Fin u) (Fin u) F) : Step (t := t) 1 (fun x => M.map C *ᵥ x) := by
  intro n f hf
  rw [Nat.one_mul]
  exact DegV.mulVec M hf

theorem Step.bound {d : Nat} {g : (Fin t → MvPolynomial (Fin t) F) → Fin t → MvPolynomial (Fin t) F} (h : Step d g) :
    DegV d (g X) := by
  have := h 1 X Deg.coord
  rwa [Nat.mul_one] at this

theorem poseidon2 {d : Nat} (hd : 0 < d) (ME MI : Matrix (Fin t) (Fin t) F) (rf rp : Nat) (c : Nat → Nat → F) :
    DegV (d ^ (2 * rf + rp)) (Spec.poseidon2 (ME.map C) (MI.map C) d rf rp (fun r i => C (c r i))
      (X : Fin t → MvPolynomial (Fin t) F)) := by
  have h := (((Step.linear (t := t) ME).comp (Step.rounds (fun r => Step.full (d := d) ME fun i : Fin t => c r i) 0 rf)).comp
    (Step.rounds (fun r => Step.part hd MI (c r 0)) rf rp)).comp
    (Step.rounds (fun r => Step.full (d := d) ME fun i : Fin t => c r i) (rf + rp) rf)
  have e : 1 * d ^ rf * d ^ rp * d ^ rf = d ^ (2 * rf + rp) := by rw [two_mul, pow_add, pow_add]; ring
  rw [e] at h
  exact h.bound

theorem poseidon {d : Nat} (hd : 0 < d) (M : Matrix (Fin t) (Fin t) F) (rf rp : Nat) (c : Nat → Nat → F) :
    DegV (d ^ (2 * rf + rp)) (Spec.poseidon (M.map C) d rf rp (fun r i => C (c r i))
      (X : Fin t → MvPolynomial (Fin t) F)) := by
  have hfull : ∀ r, Step (t := t) d (poseidonFull (M.map C) d fun i : Fin t => C (c r i)) := fun r =>
    Step.full M fun i : Fin t => c r i
  have h := ((Step.rounds hfull 0 rf).comp
    (Step.rounds (fun r => Step.poseidonPart hd M fun i : Fin t => c r i) rf rp)).comp
    (Step.rounds hfull (rf + rp) rf)
  have e : d ^ rf * d ^ rp * d ^ rf = d ^ (2 * rf + rp) := by rw [two_mul, pow_add, pow_add]; ring
  rw [e] at h
  exact h.bound

theorem feistel {s d : Nat} (hd : 0 < d) (c : F) : Step (t := t) d (Spec.feistel (s := s) d (C c)) := by
  intro n f hf i
  unfold Spec.feistel
  by_cases h : i = 0
  · simp only [h, if_true]; exact (hf 0).mono (Nat.le_mul_of_pos_left n hd)
  · simp only [h, if_false]
    exact ((hf i).mono (Nat.le_mul_of_pos_left n hd)).add (((hf 0).add (Deg.const n c)).pow d)

theorem gmimc {s d : Nat} (hd : 0 < d) (c : Nat → F) (n : Nat) :
    DegV (d ^ (n + 1)) (Spec.gmimc d (fun r => C (c r)) n (X : Fin (s + 1) → MvPolynomial (Fin (s + 1)) F)) := by
  have h : ∀ r, Step (t := s + 1) d (fun y : Fin (s + 1) → MvPolynomial (Fin (s + 1)) F => rotate (Spec.feistel d (C (c r)) y)) :=
    fun r m f hf i => feistel hd (c r) m f hf (i - 1)
  have := (Step.rounds h 0 n).comp (feistel hd (c n))
  rw [← pow_succ] at this
  exact this.bound

theorem intRound {d : Nat} (hd : 0 < d) (MI : Matrix (Fin u) (Fin u) F) (c : Fin u → F) :
    Step (t := t) d (neptuneIntRound (MI.map C) d fun i => C (c i)) := by
  intro n f hf i
  unfold neptuneIntRound
  refine (DegV.mulVec MI ?_ i).add (Deg.const _ _)
  intro j
  by_cases h : j.val = 0
  · simp only [h, if_true]; exact (hf j).pow d
  · simp only [h, if_false]; exact (hf j).mono (Nat.le_mul_of_pos_left n hd)

theorem neptune {k d : Nat} (hd : 0 < d) (ME MI : Matrix (Fin (2 * k)) (Fin (2 * k)) F) (γ : F) (rf rp : Nat)
    (c : Nat → Nat → F) : DegV (4 ^ (2 * rf) * d ^ rp) (Spec.neptune (ME.map C) (MI.map C) d (C γ) rf rp
      (fun r i => C (c r i)) (X : Fin (2 * k) → MvPolynomial (Fin (2 * k)) F)) := by
  have hext : ∀ r, Step (t := 2 * k) 4 (neptuneExtRound (ME.map C) (C γ) fun i : Fin (2 * k) => C (c r i)) := by
    intro r n f hf i
    unfold neptuneExtRound
    refine (DegV.mulVec ME ?_ i).add (Deg.const _ _)
    intro j
    unfold onPairs neptunePair
    have ha := hf (⟨2 * (j.val / 2), by omega⟩ : Fin (2 * k))
    have hb := hf (⟨2 * (j.val / 2) + 1, by omega⟩ : Fin (2 * k))
    have hz := (ha.sub hb).pow 2
    have hu := ((((ha.sub (hb.num 2)).mono (show n ≤ 2 * n by omega)).sub hz).add (Deg.const _ γ)).pow 2
    have h4 : 2 * (2 * n) = 4 * n := by ring
    rw [h4] at hu
    by_cases h : j.val % 2 = 0
    · simp only [h, if_true]
      exact ((((ha.num 2).add hb).mono (by omega)).add ((hz.num 3).mono (by omega))).add hu
    · simp only [h, if_false]
      exact (((ha.add (hb.num 3)).mono (by omega)).add ((hz.num 4).mono (by omega))).add hu
  have h := (((Step.linear (t := 2 * k) ME).comp (Step.rounds hext 0 rf)).comp
    (Step.rounds (fun r => intRound hd MI fun i : Fin (2 * k) => c r i) rf rp)).comp (Step.rounds hext (rf + rp) rf)
  have e : 1 * 4 ^ rf * d ^ rp * 4 ^ rf = 4 ^ (2 * rf) * d ^ rp := by rw [two_mul, pow_add]; ring
  rw [e] at h
  exact h.bound

end upper

section exact
open Polynomial
variable {F : Type} [Field F] {t : Nat}

/-- Polynomials of degree at most `D` with coefficients `v` at `D`. -/
def Lead (D : Nat) (v : Fin t → F) (f : Fin t → F[X]) : Prop := ∀ i, (f i).natDegree ≤ D ∧ (f i).coeff D = v i

theorem Lead.mulVec {D : Nat} {v : Fin t → F} {f : Fin t → F[X]} (h : Lead D v f) (M : Matrix (Fin t) (Fin t) F) :
    Lead D (M *ᵥ v) (M.map C *ᵥ f) := by
  intro i
  unfold Matrix.mulVec dotProduct
  refine ⟨?_, ?_⟩
  · exact natDegree_sum_le_of_forall_le _ _ fun j _ => (natDegree_C_mul_le _ _).trans (h j).1
  · rw [finsetSum_coeff]
    exact Finset.sum_congr rfl fun j _ => by
      show (C (M i j) * f j).coeff D = M i j * v j
      rw [coeff_C_mul, (h j).2]

/-- The S-box on the words selected by `P`, after constants. -/
theorem Lead.sbox {D d : Nat} (hD : 0 < D) (hd : 1 < d) {v : Fin t → F} {f : Fin t → F[X]} (h : Lead D v f)
    (P : Fin t → Prop) [DecidablePred P] (c : Fin t → F) :
    Lead (d * D) (fun i => if P i then v i ^ d else 0) (fun i => if P i then (f i + C (c i)) ^ d else f i + C (c i)) := by
  intro i
  obtain ⟨h1, h2⟩ := h i
  have hdeg : (f i + C (c i)).natDegree ≤ D := by
    rw [natDegree_add_C]; exact h1
  by_cases hP : P i
  · simp only [hP, if_true]
    refine ⟨(natDegree_pow_le).trans (Nat.mul_le_mul_left d hdeg), ?_⟩
    rw [coeff_pow_of_natDegree_le hdeg, coeff_add, coeff_C_of_ne_zero (by omega), add_zero, h2]
  · simp only [hP, if_false]
    have hlt : D < d * D := by nlinarith
    exact ⟨hdeg.trans hlt.le, coeff_eq_zero_of_natDegree_lt (lt_of_le_of_lt hdeg hlt)⟩

/-- How the leading coefficients change in a full round and in a partial round. -/
def leadFull (M : Matrix (Fin t) (Fin t) F) (d : Nat) (v : Fin t → F) : Fin t → F := M *ᵥ fun i => v i ^ d

def leadPart (M : Matrix (Fin t) (Fin t) F) (d : Nat) (v : Fin t → F) : Fin t → F :=
  M *ᵥ fun i => if i.val = 0 then v i ^ d else 0

theorem Lead.full {D d : Nat} (hD : 0 < D) (hd : 1 < d) {v : Fin t → F} {f : Fin t → F[X]} (h : Lead D v f)
    (M : Matrix (Fin t) (Fin t) F) (c : Fin t → F) :
    Lead (d * D) (leadFull M d v) (fullRound (M.map C) d (fun i => C (c i)) f) := by
  have := (h.sbox hD hd (fun _ => True) c).mulVec M
  simpa [leadFull, fullRound] using this

theorem Lead.poseidonPart {D d : Nat} (hD : 0 < D) (hd : 1 < d) {v : Fin t → F} {f : Fin t → F[X]} (h : Lead D v f)
    (M : Matrix (Fin t) (Fin t) F) (c : Fin t → F) :
    Lead (d * D) (leadPart M d v) (poseidonPartial (M.map C) d (fun i => C (c i)) f) :=
  (h.sbox hD hd (fun i => i.val = 0) c).mulVec M

theorem Lead.part {D d : Nat} (hD : 0 < D) (hd : 1 < d) {v : Fin t → F} {f : Fin t → F[X]} (h : Lead D v f)
    (M : Matrix (Fin t) (Fin t) F) (c0 : F) :
    Lead (d * D) (leadPart M d v) (partialRound (M.map C) d (C c0) f) := by
  have := (h.sbox hD hd (fun i => i.val = 0) (fun i => if i.val = 0 then c0 else 0)).mulVec M
  refine cast ?_ this
  congr 1
  unfold partialRound
  congr 1
  funext i
  by_cases hi : i.val = 0 <;> simp [hi]

theorem Lead.rounds {d : Nat} (hd : 1 < d) {g : Nat → (Fin t → F[X]) → Fin t → F[X]} {l : (Fin t → F) → Fin t → F}
    (hg : ∀ r D v f, 0 < D → Lead D v f → Lead (d * D) (l v) (g r f)) (b : Nat)
    {D : Nat} (hD : 0 < D) {v : Fin t → F} {f : Fin t → F[X]} (h : Lead D v f) :
    ∀ n, Lead (d ^ n * D) (l^[n] v) (Spec.rounds g b n f) := by
  intro n
  induction n with
  | zero => simpa [Spec.rounds] using h
  | succ n ih =>
    have := hg (b + n) _ _ _ (Nat.mul_pos (pow_pos (by omega) n) hD) ih
    rw [pow_succ', Nat.mul_assoc, Function.iterate_succ_apply']
    exact this

/-- The input in which word `j` is the variable. -/
noncomputable def line {F : Type} [CommRing F] {t : Nat} (x : Fin t → F) (j : Fin t) : Fin t → F[X] := Function.update (fun i => C (x i)) j X

theorem Lead.line (x : Fin t → F) (j : Fin t) : Lead 1 (Pi.single j 1) (line x j) := by
  intro i
  unfold Degree.line
  by_cases h : i = j
  · subst h; simp
  · simp [h]

/-- The leading coefficients of the whole permutation. -/
theorem Lead.poseidon2 {d : Nat} (hd : 1 < d) (ME MI : Matrix (Fin t) (Fin t) F) (rf rp : Nat) (c : Nat → Nat → F)
    (x : Fin t → F) (j : Fin t) :
    Lead (d ^ (2 * rf + rp)) ((leadFull ME d)^[rf] ((leadPart MI d)^[rp] ((leadFull ME d)^[rf] (ME *ᵥ Pi.single j 1))))
      (Spec.poseidon2 (ME.map C) (MI.map C) d rf rp (fun r i => C (c r i)) (Degree.line x j)) := by
  have hpos : ∀ n, 0 < d ^ n := fun n => pow_pos (by omega) n
  have h0 := (Lead.line x j).mulVec ME
  have h1 := Lead.rounds hd (fun r D v f hD h => h.full hD hd ME fun i : Fin t => c r i) 0 Nat.one_pos h0 rf
  have h2 := Lead.rounds hd (fun r D v f hD h => h.part hD hd MI (c r 0)) rf
    (Nat.mul_pos (hpos rf) Nat.one_pos) h1 rp
  have h3 := Lead.rounds hd (fun r D v f hD h => h.full hD hd ME fun i : Fin t => c r i) (rf + rp)
    (Nat.mul_pos (hpos rp) (Nat.mul_pos (hpos rf) Nat.one_pos)) h2 rf
  have e : d ^ rf * (d ^ rp * (d ^ rf * 1)) = d ^ (2 * rf + rp) := by rw [two_mul, pow_add, pow_add]; ring
  rw [e] at h3
  exact h3

theorem Lead.poseidon {d : Nat} (hd : 1 < d) (M : Matrix (Fin t) (Fin t) F) (rf rp : Nat) (c : Nat → Nat → F)
    (x : Fin t → F) (j : Fin t) :
    Lead (d ^ (2 * rf + rp)) ((leadFull M d)^[rf] ((leadPart M d)^[rp] ((leadFull M d)^[rf] (Pi.single j 1))))
      (Spec.poseidon (M.map C) d rf rp (fun r i => C (c r i)) (Degree.line x j)) := by
  have hpos : ∀ n, 0 < d ^ n := fun n => pow_pos (by omega) n
  have hfull : ∀ (r D : Nat) (v : Fin t → F) (f : Fin t → F[X]), 0 < D → Lead D v f →
      Lead (d * D) (leadFull M d v) (poseidonFull (M.map C) d (fun i : Fin t => C (c r i)) f) :=
    fun r D v f hD h => h.full hD hd M fun i : Fin t => c r i
  have h1 := Lead.rounds hd hfull 0 Nat.one_pos (Lead.line x j) rf
  have h2 := Lead.rounds hd (fun r D v f hD h => h.poseidonPart hD hd M fun i : Fin t => c r i) rf
    (Nat.mul_pos (hpos rf) Nat.one_pos) h1 rp
  have h3 := Lead.rounds hd hfull (rf + rp)
    (Nat.mul_pos (hpos rp) (Nat.mul_pos (hpos rf) Nat.one_pos)) h2 rf
  have e : d ^ rf * (d ^ rp * (d ^ rf * 1)) = d ^ (2 * rf + rp) := by rw [two_mul, pow_add, pow_add]; ring
  rw [e] at h3
  exact h3

theorem leadFull_smul (M : Matrix (Fin t) (Fin t) F) (d : Nat) (k : F) (v : Fin t → F) :
    leadFull M d (k • v) = k ^ d • leadFull M d v := by
  unfold leadFull
  rw [← Matrix.mulVec_smul]
  congr 1
  funext i
  simp [mul_pow]

theorem leadFull_iterate_smul (M : Matrix (Fin t) (Fin t) F) (d : Nat) (v : Fin t → F) :
    ∀ (n : Nat) (k : F), k ≠ 0 → ∃ k' : F, k' ≠ 0 ∧ (leadFull M d)^[n] (k • v) = k' • (leadFull M d)^[n] v := by
  intro n
  induction n with
  | zero => intro k hk; exact ⟨k, hk, rfl⟩
  | succ n ih =>
    intro k hk
    obtain ⟨k', hk', e⟩ := ih k hk
    refine ⟨k' ^ d, pow_ne_zero d hk', ?_⟩
    rw [Function.iterate_succ_apply', e, leadFull_smul, Function.iterate_succ_apply']

theorem leadPart_eq (ht : 0 < t) (M : Matrix (Fin t) (Fin t) F) (d : Nat) (v : Fin t → F) :
    leadPart M d v = v ⟨0, ht⟩ ^ d • fun i => M i ⟨0, ht⟩ := by
  funext i
  unfold leadPart Matrix.mulVec dotProduct
  rw [Finset.sum_eq_single (⟨0, ht⟩ : Fin t)]
  · simp [mul_comm]
  · intro j _ hj
    have : ¬ j.val = 0 := fun h => hj (Fin.ext h)
    simp [this]
  · simp

/-- After at least one partial round the leading coefficients are a multiple of the first column. -/
theorem leadPart_iterate (ht : 0 < t) (M : Matrix (Fin t) (Fin t) F) (d : Nat) (hM : M ⟨0, ht⟩ ⟨0, ht⟩ ≠ 0)
    (v : Fin t → F) (hv : v ⟨0, ht⟩ ≠ 0) :
    ∀ n, ∃ k : F, k ≠ 0 ∧ (leadPart M d)^[n + 1] v = k • fun i => M i ⟨0, ht⟩ := by
  intro n
  induction n with
  | zero => exact ⟨_, pow_ne_zero d hv, leadPart_eq ht M d v⟩
  | succ n ih =>
    obtain ⟨k, hk, e⟩ := ih
    rw [Function.iterate_succ_apply', e, leadPart_eq ht]
    exact ⟨_, pow_ne_zero d (mul_ne_zero hk hM), rfl⟩

/-- When the leading coefficients of the whole permutation do not vanish. -/
theorem lead_ne_zero (ht : 0 < t) (ME MI : Matrix (Fin t) (Fin t) F) {d rf rp : Nat} (hrp : 0 < rp) (v : Fin t → F)
    (h1 : (leadFull ME d)^[rf] v ⟨0, ht⟩ ≠ 0) (h2 : MI ⟨0, ht⟩ ⟨0, ht⟩ ≠ 0)
    (h3 : ∀ i, (leadFull ME d)^[rf] (fun i => MI i ⟨0, ht⟩) i ≠ 0) (i : Fin t) :
    (leadFull ME d)^[rf] ((leadPart MI d)^[rp] ((leadFull ME d)^[rf] v)) i ≠ 0 := by
  obtain ⟨n, rfl⟩ : ∃ n, rp = n + 1 := ⟨rp - 1, by omega⟩
  obtain ⟨k, hk, e⟩ := leadPart_iterate ht MI d h2 _ h1 n
  obtain ⟨k', hk', e'⟩ := leadFull_iterate_smul ME d (fun i => MI i ⟨0, ht⟩) rf k hk
  rw [e, e']
  exact mul_ne_zero hk' (h3 i)

end exact

section check

/-- `leadFull` on integers. -/
def stepN (p t d : Nat) (M : Nat → Nat → Nat) (v : List Nat) : List Nat :=
  (List.range t).map fun i => ((List.range t).map fun j => M i j * (v.getD j 0) ^ d).sum % p

def castV (p t : Nat) (v : List Nat) : Fin t → ZMod p := fun i => ((v.getD i 0 : Nat) : ZMod p)

theorem sum_range_map (f : Nat → Nat) : ∀ n, ((List.range n).map f).sum = ∑ i : Fin n, f i := by
  intro n
  rw [← Finset.sum_range]
  induction n with
  | zero => rfl
  | succ n ih => rw [List.range_succ, List.map_append, List.sum_append, ih, Finset.sum_range_succ]; simp

theorem castV_map (p t : Nat) (f : Nat → Nat) : castV p t ((List.range t).map f) = fun i : Fin t => ((f i : Nat) : ZMod p) := by
  funext i
  unfold castV
  rw [List.getD_eq_getElem _ _ (by simp), List.getElem_map, List.getElem_range]

theorem castV_stepN (p t d : Nat) [Fact p.Prime] (M : Nat → Nat → Nat) (v : List Nat) :
    castV p t (stepN p t d M v) = leadFull (Matrix.of fun i j : Fin t => ((M i j : Nat) : ZMod p)) d (castV p t v) := by
  unfold stepN
  rw [castV_map]
  funext i
  rw [ZMod.natCast_mod, sum_range_map]
  unfold leadFull Matrix.mulVec dotProduct castV
  push_cast
  rfl

theorem castV_iterate (p t d : Nat) [Fact p.Prime] (M : Nat → Nat → Nat) (v : List Nat) :
    ∀ n, castV p t ((stepN p t d M)^[n] v) =
      (leadFull (Matrix.of fun i j : Fin t => ((M i j : Nat) : ZMod p)) d)^[n] (castV p t v) := by
  intro n
  induction n with
  | zero => rfl
  | succ n ih => rw [Function.iterate_succ_apply', Function.iterate_succ_apply', castV_stepN, ih]

/-- The conditions of `lead_ne_zero`, on integers: `E` and `I` are the matrices, `V j` the start vectors. -/
def check (p t d rf : Nat) (E I V : Nat → Nat → Nat) : Bool :=
  ((List.range t).all fun j => ((stepN p t d E)^[rf] ((List.range t).map fun i => V i j)).getD 0 0 % p != 0) &&
  I 0 0 % p != 0 &&
  (let w := (stepN p t d E)^[rf] ((List.range t).map fun i => I i 0)
   (List.range t).all fun i => w.getD i 0 % p != 0)

theorem cast_ne_zero {p n : Nat} (h : (n % p != 0) = true) : (n : ZMod p) ≠ 0 := by
  rw [Ne, ZMod.natCast_eq_zero_iff]
  intro hd
  rw [Nat.mod_eq_zero_of_dvd hd] at h
  simp at h

theorem check_sound {p t d rf rp : Nat} [Fact p.Prime] (ht : 0 < t) (hrp : 0 < rp) {E I V : Nat → Nat → Nat}
    (h : check p t d rf E I V = true) (j i : Fin t) :
    (leadFull (Matrix.of fun i j : Fin t => ((E i j : Nat) : ZMod p)) d)^[rf]
      ((leadPart (Matrix.of fun i j : Fin t => ((I i j : Nat) : ZMod p)) d)^[rp]
        ((leadFull (Matrix.of fun i j : Fin t => ((E i j : Nat) : ZMod p)) d)^[rf]
          fun i : Fin t => ((V i j : Nat) : ZMod p))) i ≠ 0 := by
  simp only [check, Bool.and_eq_true, List.all_eq_true, List.mem_range] at h
  obtain ⟨⟨h1, h2⟩, h3⟩ := h
  refine lead_ne_zero ht _ _ hrp _ ?_ ?_ ?_ i
  · have := castV_iterate p t d E ((List.range t).map fun i => V i j) rf
    rw [castV_map] at this
    rw [← this]
    exact cast_ne_zero (h1 j j.isLt)
  · exact cast_ne_zero h2
  · intro i
    have := castV_iterate p t d E ((List.range t).map fun i => I i 0) rf
    rw [castV_map] at this
    have e : (fun i : Fin t => (Matrix.of fun i j : Fin t => ((I i j : Nat) : ZMod p)) i ⟨0, ht⟩) =
      fun i : Fin t => ((I i 0 : Nat) : ZMod p) := rfl
    rw [e, ← this]
    exact cast_ne_zero (h3 i i.isLt)

end check

end Degree

end ZkHash
