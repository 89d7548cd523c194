import Verif.Proofs.Degree
import Verif.Proofs.Symbolic
import Verif.Spec.Degree

set_option autoImplicit false

/-!
# Degrees of GMiMC along a line, and of Neptune of width 4 and 8
-/

namespace ZkHash

open Spec Matrix

namespace Degree

section gmimcExact
open Polynomial
variable {F : Type} [Field F] {s : Nat}

theorem Lead.rotate {D : Nat} {v : Fin (s + 1) → F} {f : Fin (s + 1) → F[X]} (h : Lead D v f) :
    Lead D (Spec.rotate v) (Spec.rotate f) := fun i => h (i - 1)

/-- A round of GMiMC whose branch 0 does not depend on the variable. -/
theorem Lead.feistel_idle {d : Nat} {v : Fin (s + 1) → F} {f : Fin (s + 1) → F[X]} (h : Lead 1 v f) (hv : v 0 = 0)
    (c : F) : Lead 1 v (Spec.feistel d (C c) f) := by
  obtain ⟨h1, h2⟩ := h 0
  have h0 : (f 0).natDegree = 0 := by
    by_contra hne
    have hone : (f 0).natDegree = 1 := by omega
    have hlc : (f 0).leadingCoeff = 0 := by rw [leadingCoeff, hone, h2, hv]
    rw [leadingCoeff_eq_zero.mp hlc] at hone
    simp at hone
  have hp : ((f 0 + C c) ^ d).natDegree = 0 := by
    have := natDegree_pow_le_of_le d (show (f 0 + C c).natDegree ≤ 0 by rw [natDegree_add_C, h0])
    omega
  intro i
  by_cases hi : i = 0
  · subst hi
    simp only [if_true, Spec.feistel]
    exact ⟨h1, h2⟩
  · obtain ⟨g1, g2⟩ := h i
    simp only [hi, if_false, Spec.feistel]
    refine ⟨(natDegree_add_le _ _).trans (max_le g1 (by omega)), ?_⟩
    rw [coeff_add, g2, coeff_eq_zero_of_natDegree_lt (by omega), add_zero]

/-- A round of GMiMC whose branch 0 has degree `D`. -/
theorem Lead.feistel {D d : Nat} (hD : 0 < D) (hd : 1 < d) {v : Fin (s + 1) → F} {f : Fin (s + 1) → F[X]}
    (h : Lead D v f) (c : F) :
    Lead (d * D) (fun i => if i = 0 then 0 else v 0 ^ d) (Spec.feistel d (C c) f) := by
  obtain ⟨h1, h2⟩ := h 0
  have hlt : D < d * D := by nlinarith
  have hc : (f 0 + C c).natDegree ≤ D := by rw [natDegree_add_C]; exact h1
  intro i
  by_cases hi : i = 0
  · subst hi
    simp only [if_true, Spec.feistel]
    exact ⟨h1.trans hlt.le, coeff_eq_zero_of_natDegree_lt (lt_of_le_of_lt h1 hlt)⟩
  · obtain ⟨g1, g2⟩ := h i
    simp only [hi, if_false, Spec.feistel]
    refine ⟨(natDegree_add_le _ _).trans (max_le (g1.trans hlt.le) (natDegree_pow_le.trans (Nat.mul_le_mul_left d hc))),
      ?_⟩
    rw [coeff_add, coeff_eq_zero_of_natDegree_lt (lt_of_le_of_lt g1 hlt), zero_add, coeff_pow_of_natDegree_le hc,
      coeff_add, coeff_C_of_ne_zero (by omega), add_zero, h2]

/-- Branch 0 keeps its value in the last round. -/
theorem Lead.feistel_zero {D d : Nat} {v : Fin (s + 1) → F} {f : Fin (s + 1) → F[X]}
    (h : Lead D v f) (c : F) : (Spec.feistel d (C c) f 0).natDegree ≤ D ∧ (Spec.feistel d (C c) f 0).coeff D = v 0 := by
  simp only [Spec.feistel, if_true]
  exact h 0

/-- The rounds before word `j` comes to branch 0. -/
theorem Lead.gmimc_idle {d : Nat} (c : Nat → F) (x : Fin (s + 1) → F) (j : Fin (s + 1)) : ∀ k : Nat,
    k ≤ (s + 1 - j.val) % (s + 1) →
    Lead 1 (Pi.single (j + Fin.ofNat (s + 1) k) 1)
      (Spec.rounds (fun r y => Spec.rotate (Spec.feistel d (C (c r)) y)) 0 k (Degree.line x j)) := by
  intro k
  induction k with
  | zero =>
    intro _
    have := Lead.line x j
    have e : j + Fin.ofNat (s + 1) 0 = j := by
      apply Fin.ext
      simp [Fin.val_add, Nat.mod_eq_of_lt j.isLt]
    rw [e]
    simpa [Spec.rounds] using this
  | succ k ih =>
    intro hk
    have hj := j.isLt
    have hlt : j.val + k < s + 1 ∧ j.val ≠ 0 := by
      rcases Nat.eq_zero_or_pos j.val with h0 | h0
      · rw [h0, Nat.sub_zero, Nat.mod_self] at hk; omega
      · rw [Nat.mod_eq_of_lt (by omega)] at hk; omega
    have hne : j + Fin.ofNat (s + 1) k ≠ 0 := by
      intro h
      have := congrArg Fin.val h
      simp only [Fin.val_add, Fin.ofNat, Fin.val_zero] at this
      rw [Nat.add_mod_mod, Nat.mod_eq_of_lt hlt.1] at this
      omega
    have h1 := (ih (by omega)).feistel_idle (d := d) (by rw [Pi.single_apply, if_neg hne.symm]) (c (0 + k))
    have h2 := h1.rotate
    have e : (Spec.rotate (Pi.single (j + Fin.ofNat (s + 1) k) (1 : F)) : Fin (s + 1) → F) =
        Pi.single (j + Fin.ofNat (s + 1) (k + 1)) 1 := by
      funext i
      have : i - 1 = j + Fin.ofNat (s + 1) k ↔ i = j + Fin.ofNat (s + 1) (k + 1) := by
        have e1 : (Fin.ofNat (s + 1) (k + 1) : Fin (s + 1)) = Fin.ofNat (s + 1) k + 1 := by
          apply Fin.ext
          simp [Fin.val_add]
        rw [e1, ← add_assoc, sub_eq_iff_eq_add]
      simp only [Spec.rotate, Pi.single_apply, this]
    rw [e] at h2
    exact h2

/-- The rounds after that. -/
theorem Lead.gmimc_active {d : Nat} (hd : 1 < d) (hs : 0 < s) (c : Nat → F) (x : Fin (s + 1) → F) (j : Fin (s + 1)) :
    ∀ m : Nat, ∃ v : Fin (s + 1) → F, v 0 = 1 ∧ Lead (d ^ m) v
      (Spec.rounds (fun r y => Spec.rotate (Spec.feistel d (C (c r)) y)) 0 ((s + 1 - j.val) % (s + 1) + m)
        (Degree.line x j)) := by
  intro m
  induction m with
  | zero =>
    have := Lead.gmimc_idle (d := d) c x j _ (le_refl _)
    refine ⟨_, ?_, by rw [pow_zero]; exact this⟩
    have e : j + Fin.ofNat (s + 1) ((s + 1 - j.val) % (s + 1)) = 0 := by
      apply Fin.ext
      simp only [Fin.val_add, Fin.ofNat, Fin.val_zero, Nat.mod_mod, Nat.add_mod_mod]
      rw [show j.val + (s + 1 - j.val) = s + 1 by have := j.isLt; omega, Nat.mod_self]
    rw [e]
    simp
  | succ m ih =>
    obtain ⟨v, hv, h⟩ := ih
    have h1 := (h.feistel (pow_pos (by omega) m) hd (c (0 + ((s + 1 - j.val) % (s + 1) + m)))).rotate
    rw [← pow_succ'] at h1
    refine ⟨_, ?_, h1⟩
    have : (0 : Fin (s + 1)) - 1 ≠ 0 := by
      intro h
      have h1 : (1 : Fin (s + 1)) = 0 := (sub_eq_zero.mp h).symm
      have := congrArg Fin.val h1
      rw [Fin.val_zero, Fin.val_one', Nat.mod_eq_of_lt (by omega)] at this
      omega
    simp only [Spec.rotate, this, if_false, hv, one_pow]

end gmimcExact

section neptuneUpper
open MvPolynomial (C X)
variable {F : Type} [CommRing F] {t : Nat}

theorem Deg.of_eq {n : Nat} {p q : MvPolynomial (Fin t) F} (hp : Deg n p) (e : q = p) : Deg n q := e ▸ hp

/-- The state before an external round of width 4: degree of the words, of the differences within the two pairs, and of
the sum of the differences. -/
structure Pair4 (n z s : Nat) (f : Fin (2 * 2) → MvPolynomial (Fin t) F) : Prop where
  word : ∀ i, Deg n (f i)
  diff0 : Deg z (f 0 - f 1)
  diff1 : Deg z (f 2 - f 3)
  sum : Deg s (f 0 - f 1 + (f 2 - f 3))

theorem neptuneExt4_apply {F : Type} [CommRing F] (γ : F) (c y : Fin (2 * 2) → F) :
    neptuneExtRound neptuneExt4 γ c y = ![
      2 * (neptunePair γ (y 0, y 1)).1 + (neptunePair γ (y 2, y 3)).1 + c 0,
      (neptunePair γ (y 0, y 1)).2 + 2 * (neptunePair γ (y 2, y 3)).2 + c 1,
      (neptunePair γ (y 0, y 1)).1 + 2 * (neptunePair γ (y 2, y 3)).1 + c 2,
      2 * (neptunePair γ (y 0, y 1)).2 + (neptunePair γ (y 2, y 3)).2 + c 3] := by
  funext i
  fin_cases i <;>
    simp [neptuneExtRound, neptuneExt4, parityMatrix, onPairs, Matrix.mulVec, dotProduct, Fin.sum_univ_succ]

theorem Pair4.step {n z s : Nat} {f : Fin (2 * 2) → MvPolynomial (Fin t) F} (h : Pair4 n z s f) (h1 : n ≤ 2 * z)
    (h2 : n ≤ z + s) (γ : F) (c : Fin (2 * 2) → F) :
    Pair4 (4 * z) (3 * z + s) (2 * z) (neptuneExtRound neptuneExt4 (C γ) (fun i => C (c i)) f) := by
  obtain ⟨hw, hd0, hd1, hs⟩ := h
  have e2 : z + z = 2 * z := by omega
  have hz0 := hd0.mul hd0
  have hz1 := hd1.mul hd1
  rw [e2] at hz0 hz1
  have c2 : (C 2 : MvPolynomial (Fin t) F) = 2 := map_ofNat C 2
  have c3 : (C 3 : MvPolynomial (Fin t) F) = 3 := map_ofNat C 3
  have c4 : (C 4 : MvPolynomial (Fin t) F) = 4 := map_ofNat C 4
  have c6 : (C 6 : MvPolynomial (Fin t) F) = 6 := map_ofNat C 6
  have hl0 : Deg n (f 0 - C 2 * f 1) := (hw 0).sub ((hw 1).smul 2)
  have hl1 : Deg n (f 2 - C 2 * f 3) := (hw 2).sub ((hw 3).smul 2)
  have hu0 := ((hl0.mono h1).sub hz0).add (Deg.const _ γ)
  have hu1 := ((hl1.mono h1).sub hz1).add (Deg.const _ γ)
  have huu0 := hu0.mul hu0
  have huu1 := hu1.mul hu1
  have e4 : 2 * z + 2 * z = 4 * z := by omega
  rw [e4] at huu0 huu1
  -- the words of a pair without the square of `u`
  have hL : ∀ (a b : F) (k : F) (i j : Fin (2 * 2)), Deg z (f i - f j) →
      Deg (2 * z) (C a * f i + C b * f j + C k * ((f i - f j) * (f i - f j))) := by
    intro a b k i j hij
    have := hij.mul hij
    rw [e2] at this
    exact ((((hw i).smul a).add ((hw j).smul b)).mono h1).add (this.smul k)
  have hA0 := hL 2 1 3 0 1 hd0
  have hB0 := hL 1 3 4 0 1 hd0
  have hA1 := hL 2 1 3 2 3 hd1
  have hB1 := hL 1 3 4 2 3 hd1
  have hm : 2 * z ≤ 4 * z := by omega
  have hy10 := (hA0.mono hm).add huu0
  have hy20 := (hB0.mono hm).add huu0
  have hy11 := (hA1.mono hm).add huu1
  have hy21 := (hB1.mono hm).add huu1
  -- the difference of the two `u`
  have hdu := ((hl0.sub hl1).mono h2).sub ((hd0.sub hd1).mul hs)
  have hprod := hdu.mul (hu0.add hu1)
  have e5 : z + s + 2 * z = 3 * z + s := by omega
  rw [e5] at hprod
  have hm2 : 2 * z ≤ 3 * z + s := by omega
  refine ⟨fun i => ?_, ?_, ?_, ?_⟩
  · rw [neptuneExt4_apply]; simp only [neptunePair]
    fin_cases i
    · exact (((hy10.smul 2).add hy11).add (Deg.const _ (c 0))).of_eq (by simp [c2, c3, c4, c6]; ring)
    · exact ((hy20.add (hy21.smul 2)).add (Deg.const _ (c 1))).of_eq (by simp [c2, c3, c4, c6]; ring)
    · exact ((hy10.add (hy11.smul 2)).add (Deg.const _ (c 2))).of_eq (by simp [c2, c3, c4, c6]; ring)
    · exact (((hy20.smul 2).add hy21).add (Deg.const _ (c 3))).of_eq (by simp [c2, c3, c4, c6]; ring)
  · rw [neptuneExt4_apply]; simp only [neptunePair]
    exact (((((hA0.smul 2).add hA1).sub (hB0.add (hB1.smul 2))).mono hm2).add hprod |>.add
      (Deg.const _ (c 0 - c 1))).of_eq (by simp [c2, c3, c4, c6]; ring)
  · rw [neptuneExt4_apply]; simp only [neptunePair]
    exact (((((hA0.add (hA1.smul 2)).sub ((hB0.smul 2).add hB1)).mono hm2).sub hprod) |>.add
      (Deg.const _ (c 2 - c 3))).of_eq (by simp [c2, c3, c4, c6]; ring)
  · rw [neptuneExt4_apply]; simp only [neptunePair]
    exact (((hu0.add hu1).smul 3).add (Deg.const _ (c 0 - c 1 + (c 2 - c 3) - 6 * γ))).of_eq (by simp [c2, c3, c4, c6]; ring)

theorem neptune4Degree_pos : ∀ r, 0 < neptune4Degree r
  | 0 => by decide
  | 1 => by decide
  | 2 => by decide
  | r + 3 => by
    have := neptune4Degree_pos (r + 2)
    unfold neptune4Degree
    omega

/-- The rounds of one half. -/
theorem Pair4.rounds {m : Nat} {f : Fin (2 * 2) → MvPolynomial (Fin t) F} (h : DegV m f) (γ : F)
    (c : Nat → Fin (2 * 2) → F) (b : Nat) : ∀ r, ∃ z s, Pair4 (neptune4Degree r * m) z s
      (Spec.rounds (fun r => neptuneExtRound neptuneExt4 (C γ) (fun i => C (c r i))) b r f) ∧
      neptune4Degree (r + 1) * m = 4 * z ∧ neptune4Degree (r + 2) * m = 4 * (3 * z + s) ∧
      neptune4Degree r * m ≤ 2 * z ∧ neptune4Degree r * m ≤ z + s := by
  intro r
  induction r with
  | zero =>
    refine ⟨m, m, ⟨fun i => ?_, ?_, ?_, ?_⟩, ?_, ?_, ?_, ?_⟩
    · have hm : m ≤ neptune4Degree 0 * m := by simp [neptune4Degree]
      exact (h i).mono hm
    · exact (h 0).sub (h 1)
    · exact (h 2).sub (h 3)
    · exact ((h 0).sub (h 1)).add ((h 2).sub (h 3))
    all_goals (simp only [neptune4Degree]; try omega)
  | succ r ih =>
    obtain ⟨z, s, hp, e1, e2, l1, l2⟩ := ih
    refine ⟨3 * z + s, 2 * z, ?_, e2, ?_, ?_, ?_⟩
    · rw [e1]
      exact hp.step l1 l2 γ (c (b + r))
    · have : neptune4Degree (r + 3) = 3 * neptune4Degree (r + 2) + 2 * neptune4Degree (r + 1) := rfl
      rw [this, Nat.add_mul, Nat.mul_assoc, Nat.mul_assoc, e1, e2]
      omega
    · rw [e1]; omega
    · rw [e1]; omega

/-- Neptune of width 4 with its fixed matrix. -/
theorem neptune4 {d : Nat} (hd : 0 < d) (MI : Matrix (Fin (2 * 2)) (Fin (2 * 2)) F) (γ : F) (rf rp : Nat)
    (c : Nat → Nat → F) :
    DegV (neptune4Degree rf * (d ^ rp * neptune4Degree rf)) (Spec.neptune ((neptuneExt4 (F := F)).map C) (MI.map C) d (C γ) rf rp
      (fun r i => C (c r i)) (X : Fin (2 * 2) → MvPolynomial (Fin (2 * 2)) F)) := by
  have h0 : DegV 1 ((neptuneExt4 (F := F)).map C *ᵥ (X : Fin (2 * 2) → MvPolynomial (Fin (2 * 2)) F)) :=
    DegV.mulVec _ Deg.coord
  rw [Symbolic.neptuneExt4_map] at h0 ⊢
  obtain ⟨z, s, h1, -⟩ := Pair4.rounds h0 γ (fun r i => c r i) 0 rf
  rw [Nat.mul_one] at h1
  have h2 := Step.rounds (fun r => intRound hd MI fun i : Fin (2 * 2) => c r i) rf rp _ _ h1.word
  obtain ⟨z', s', h3, -⟩ := Pair4.rounds h2 γ (fun r i => c r i) (rf + rp) rf
  exact h3.word

end neptuneUpper

section neptuneExact
open Polynomial
variable {F : Type} [Field F]

/-- How the leading coefficients change in an external round of Neptune. -/
def leadExt {k : Nat} (M : Matrix (Fin (2 * k)) (Fin (2 * k)) F) (v : Fin (2 * k) → F) : Fin (2 * k) → F :=
  M *ᵥ fun i => (v ⟨2 * (i / 2), by omega⟩ - v ⟨2 * (i / 2) + 1, by omega⟩) ^ 4

theorem Lead.add_const {t D : Nat} (hD : 0 < D) {v : Fin t → F} {f : Fin t → F[X]} (h : Lead D v f) (c : Fin t → F) :
    Lead D v (f + fun i => C (c i)) := by
  intro i
  obtain ⟨h1, h2⟩ := h i
  rw [Pi.add_apply]
  refine ⟨by rw [natDegree_add_C]; exact h1, ?_⟩
  rw [coeff_add, coeff_C_of_ne_zero (by omega), add_zero, h2]

theorem pair_lead {D : Nat} (hD : 0 < D) {p q : F[X]} {v w : F} (hp : p.natDegree ≤ D) (hpc : p.coeff D = v)
    (hq : q.natDegree ≤ D) (hqc : q.coeff D = w) (γ : F) (a b k : F) :
    (C a * p + C b * q + C k * (p - q) ^ 2 + (p - C 2 * q - (p - q) ^ 2 + C γ) ^ 2).natDegree ≤ 4 * D ∧
    (C a * p + C b * q + C k * (p - q) ^ 2 + (p - C 2 * q - (p - q) ^ 2 + C γ) ^ 2).coeff (4 * D) = (v - w) ^ 4 := by
  have hz : (p - q).natDegree ≤ D := (natDegree_sub_le _ _).trans (max_le hp hq)
  have hz2 : ((p - q) ^ 2).natDegree ≤ 2 * D := natDegree_pow_le.trans (Nat.mul_le_mul_left 2 hz)
  have hl : (p - C 2 * q).natDegree ≤ D :=
    (natDegree_sub_le _ _).trans (max_le hp ((natDegree_C_mul_le _ _).trans hq))
  have hu : (p - C 2 * q - (p - q) ^ 2 + C γ).natDegree ≤ 2 * D := by
    rw [natDegree_add_C]
    exact (natDegree_sub_le _ _).trans (max_le (by omega) hz2)
  have huc : (p - C 2 * q - (p - q) ^ 2 + C γ).coeff (2 * D) = -(v - w) ^ 2 := by
    rw [coeff_add, coeff_sub, coeff_C_of_ne_zero (by omega), add_zero, coeff_eq_zero_of_natDegree_lt (by omega), zero_sub,
      coeff_pow_of_natDegree_le hz, coeff_sub, hpc, hqc]
  have hlow : (C a * p + C b * q + C k * (p - q) ^ 2).natDegree ≤ 2 * D :=
    (natDegree_add_le _ _).trans (max_le ((natDegree_add_le _ _).trans (max_le
      ((natDegree_C_mul_le _ _).trans (by omega)) ((natDegree_C_mul_le _ _).trans (by omega))))
      ((natDegree_C_mul_le _ _).trans hz2))
  have e : 4 * D = 2 * (2 * D) := by ring
  constructor
  · refine (natDegree_add_le _ _).trans (max_le (by omega) ?_)
    rw [e]
    exact natDegree_pow_le.trans (Nat.mul_le_mul_left 2 hu)
  · rw [coeff_add, coeff_eq_zero_of_natDegree_lt (by omega), zero_add, e, coeff_pow_of_natDegree_le hu, huc]
    ring

theorem Lead.ext {k D : Nat} (hD : 0 < D) {v : Fin (2 * k) → F} {f : Fin (2 * k) → F[X]} (h : Lead D v f)
    (M : Matrix (Fin (2 * k)) (Fin (2 * k)) F) (γ : F) (c : Fin (2 * k) → F) :
    Lead (4 * D) (leadExt M v) (neptuneExtRound (M.map C) (C γ) (fun i => C (c i)) f) := by
  refine Lead.add_const (by omega) (Lead.mulVec ?_ M) c
  intro i
  obtain ⟨h1, h2⟩ := h ⟨2 * (i / 2), by omega⟩
  obtain ⟨g1, g2⟩ := h ⟨2 * (i / 2) + 1, by omega⟩
  have c2 : C (2 : F) = 2 := map_ofNat C 2
  have c3 : C (3 : F) = 3 := map_ofNat C 3
  have c4 : C (4 : F) = 4 := map_ofNat C 4
  by_cases hi : i.val % 2 = 0
  · simp only [onPairs, neptunePair, hi, if_true]
    have := pair_lead hD h1 h2 g1 g2 γ 2 1 3
    rw [c2, c3, map_one, one_mul] at this
    exact this
  · simp only [onPairs, neptunePair, hi, if_false]
    have := pair_lead hD h1 h2 g1 g2 γ 1 3 4
    rw [c2, c3, c4, map_one, one_mul] at this
    exact this

theorem Lead.int {t D d : Nat} (hD : 0 < D) (hd : 1 < d) {v : Fin t → F} {f : Fin t → F[X]} (h : Lead D v f)
    (M : Matrix (Fin t) (Fin t) F) (c : Fin t → F) :
    Lead (d * D) (leadPart M d v) (neptuneIntRound (M.map C) d (fun i => C (c i)) f) := by
  have := ((h.sbox hD hd (fun i => i.val = 0) (fun _ => 0)).mulVec M).add_const (Nat.mul_pos (by omega) hD) c
  simpa [neptuneIntRound, leadPart] using this

theorem Lead.neptune {k d : Nat} (hd : 1 < d) (ME MI : Matrix (Fin (2 * k)) (Fin (2 * k)) F) (γ : F) (rf rp : Nat)
    (c : Nat → Nat → F) (x : Fin (2 * k) → F) (j : Fin (2 * k)) :
    Lead (4 ^ (2 * rf) * d ^ rp)
      ((leadExt ME)^[rf] ((leadPart MI d)^[rp] ((leadExt ME)^[rf] (ME *ᵥ Pi.single j 1))))
      (Spec.neptune (ME.map C) (MI.map C) d (C γ) rf rp (fun r i => C (c r i)) (Degree.line x j)) := by
  have hpos : ∀ n, 0 < d ^ n := fun n => pow_pos (by omega) n
  have hpos4 : ∀ n, 0 < 4 ^ n := fun n => pow_pos (by omega) n
  have h0 := (Lead.line x j).mulVec ME
  have h1 := Lead.rounds (d := 4) (by omega) (fun r D v f hD h => h.ext hD ME γ fun i : Fin (2 * k) => c r i) 0
    Nat.one_pos h0 rf
  have h2 := Lead.rounds hd (fun r D v f hD h => h.int hD hd MI fun i : Fin (2 * k) => c r i) rf
    (Nat.mul_pos (hpos4 rf) Nat.one_pos) h1 rp
  have h3 := Lead.rounds (d := 4) (by omega) (fun r D v f hD h => h.ext hD ME γ fun i : Fin (2 * k) => c r i) (rf + rp)
    (Nat.mul_pos (hpos rp) (Nat.mul_pos (hpos4 rf) Nat.one_pos)) h2 rf
  have e : 4 ^ rf * (d ^ rp * (4 ^ rf * 1)) = 4 ^ (2 * rf) * d ^ rp := by rw [two_mul, pow_add]; ring
  rw [e] at h3
  exact h3

theorem leadExt_smul {k : Nat} (M : Matrix (Fin (2 * k)) (Fin (2 * k)) F) (a : F) (v : Fin (2 * k) → F) :
    leadExt M (a • v) = a ^ 4 • leadExt M v := by
  unfold leadExt
  rw [← Matrix.mulVec_smul]
  congr 1
  funext i
  simp only [Pi.smul_apply, smul_eq_mul, ← mul_sub, mul_pow]

theorem leadExt_iterate_smul {k : Nat} (M : Matrix (Fin (2 * k)) (Fin (2 * k)) F) (v : Fin (2 * k) → F) :
    ∀ (n : Nat) (a : F), a ≠ 0 → ∃ a' : F, a' ≠ 0 ∧ (leadExt M)^[n] (a • v) = a' • (leadExt M)^[n] v := by
  intro n
  induction n with
  | zero => intro a ha; exact ⟨a, ha, rfl⟩
  | succ n ih =>
    intro a ha
    obtain ⟨a', ha', e⟩ := ih a ha
    refine ⟨a' ^ 4, pow_ne_zero 4 ha', ?_⟩
    rw [Function.iterate_succ_apply', e, leadExt_smul, Function.iterate_succ_apply']

/-- The indicator of the first pair. -/
def firstPair (k : Nat) : Fin (2 * k) → F := fun i => if i.val / 2 = 0 then 1 else 0

theorem leadExt_column {k : Nat} (hk : 0 < k) (M : Matrix (Fin (2 * k)) (Fin (2 * k)) F) (mu : Nat → F) :
    leadExt M (fun i => neptuneInternal (2 * k) mu i ⟨0, by omega⟩) = mu 0 ^ 4 • (M *ᵥ firstPair k) := by
  unfold leadExt
  rw [← Matrix.mulVec_smul]
  congr 1
  funext i
  unfold neptuneInternal firstPair
  by_cases hi : i.val / 2 = 0
  · simp only [Fin.ext_iff, Pi.smul_apply, smul_eq_mul, hi, if_true]
    simp
  · have : ¬ 2 * (i.val / 2) = 0 := by omega
    simp only [Fin.ext_iff, Pi.smul_apply, smul_eq_mul, hi, this, if_false]
    simp

/-- When the leading coefficients of Neptune do not vanish. -/
theorem neptune_lead_ne_zero {k : Nat} (hk : 0 < k) (ME : Matrix (Fin (2 * k)) (Fin (2 * k)) F) (mu : Nat → F)
    {d rf rp : Nat} (hrp : 0 < rp) (v : Fin (2 * k) → F) (hmu : mu 0 ≠ 0) (hmu1 : mu 0 + 1 ≠ 0)
    (h1 : (leadExt ME)^[rf + 1] v ⟨0, by omega⟩ ≠ 0)
    (h3 : ∀ i, (leadExt ME)^[rf] (ME *ᵥ firstPair k) i ≠ 0) (i : Fin (2 * k)) :
    (leadExt ME)^[rf + 1] ((leadPart (neptuneInternal (2 * k) mu) d)^[rp] ((leadExt ME)^[rf + 1] v)) i ≠ 0 := by
  obtain ⟨n, rfl⟩ : ∃ n, rp = n + 1 := ⟨rp - 1, by omega⟩
  have h2 : neptuneInternal (2 * k) mu (⟨0, by omega⟩ : Fin (2 * k)) ⟨0, by omega⟩ ≠ 0 := by
    unfold neptuneInternal
    simpa using hmu1
  obtain ⟨a, ha, e⟩ := leadPart_iterate (by omega) (neptuneInternal (2 * k) mu) d h2 _ h1 n
  rw [e, Function.iterate_succ_apply, leadExt_smul, leadExt_column hk, smul_smul]
  obtain ⟨a', ha', e'⟩ := leadExt_iterate_smul ME (ME *ᵥ firstPair k) rf (a ^ 4 * mu 0 ^ 4)
    (mul_ne_zero (pow_ne_zero 4 ha) (pow_ne_zero 4 hmu))
  rw [e']
  exact mul_ne_zero ha' (h3 i)

end neptuneExact

section neptune4Exact
open Polynomial
variable {F : Type} [Field F]

/-- Degree at most `n`, with coefficient `c` at `n`. -/
def Co (n : Nat) (c : F) (p : F[X]) : Prop := p.natDegree ≤ n ∧ p.coeff n = c

theorem Co.add {n : Nat} {a b : F} {p q : F[X]} (hp : Co n a p) (hq : Co n b q) : Co n (a + b) (p + q) :=
  ⟨(natDegree_add_le _ _).trans (max_le hp.1 hq.1), by rw [coeff_add, hp.2, hq.2]⟩

theorem Co.sub {n : Nat} {a b : F} {p q : F[X]} (hp : Co n a p) (hq : Co n b q) : Co n (a - b) (p - q) :=
  ⟨(natDegree_sub_le _ _).trans (max_le hp.1 hq.1), by rw [coeff_sub, hp.2, hq.2]⟩

theorem Co.mul {n m : Nat} {a b : F} {p q : F[X]} (hp : Co n a p) (hq : Co m b q) : Co (n + m) (a * b) (p * q) :=
  ⟨natDegree_mul_le_of_le hp.1 hq.1, by rw [coeff_mul_add_eq_of_natDegree_le hp.1 hq.1, hp.2, hq.2]⟩

theorem Co.smul {n : Nat} {a : F} {p : F[X]} (hp : Co n a p) (k : F) : Co n (k * a) (C k * p) :=
  ⟨(natDegree_C_mul_le _ _).trans hp.1, by rw [coeff_C_mul, hp.2]⟩

theorem Co.low {n m : Nat} {a : F} {p : F[X]} (hp : Co n a p) (h : n < m) : Co m 0 p :=
  ⟨hp.1.trans h.le, coeff_eq_zero_of_natDegree_lt (lt_of_le_of_lt hp.1 h)⟩

theorem Co.const {m : Nat} (h : 0 < m) (k : F) : Co m 0 (C k) :=
  ⟨by rw [natDegree_C]; omega, by rw [coeff_C_of_ne_zero (by omega)]⟩

theorem Co.of_eq {n : Nat} {a b : F} {p q : F[X]} (hp : Co n a p) (hab : b = a) (hpq : q = p) : Co n b q := by
  rw [hab, hpq]
  exact hp

/-- A state of width 4 on a line: degrees and leading coefficients of the words, of the differences within the two
pairs, and of the sum of the differences. -/
def Quad (n z s : Nat) (v : Fin (2 * 2) → F) (ζ0 ζ1 σ : F) (f : Fin (2 * 2) → F[X]) : Prop :=
  (∀ i, Co n (v i) (f i)) ∧ Co z ζ0 (f 0 - f 1) ∧ Co z ζ1 (f 2 - f 3) ∧ Co s σ (f 0 - f 1 + (f 2 - f 3))

theorem Quad.lead {n z s : Nat} {v : Fin (2 * 2) → F} {ζ0 ζ1 σ : F} {f : Fin (2 * 2) → F[X]}
    (h : Quad n z s v ζ0 ζ1 σ f) : Lead n v f := h.1

theorem Quad.of_lead {n : Nat} {v : Fin (2 * 2) → F} {f : Fin (2 * 2) → F[X]} (h : Lead n v f) :
    Quad n n n v (v 0 - v 1) (v 2 - v 3) (v 0 - v 1 + (v 2 - v 3)) f := by
  have hc : ∀ i, Co n (v i) (f i) := h
  exact ⟨hc, (hc 0).sub (hc 1), (hc 2).sub (hc 3), ((hc 0).sub (hc 1)).add ((hc 2).sub (hc 3))⟩

theorem Quad.step {n z s : Nat} {v : Fin (2 * 2) → F} {ζ0 ζ1 σ : F} {q : Fin (2 * 2) → F[X]}
    (h : Quad n z s v ζ0 ζ1 σ q) (hz : 0 < z) (h1 : n < 2 * z) (h2 : n < z + s) (γ : F) (c : Fin (2 * 2) → F) :
    Quad (4 * z) (3 * z + s) (2 * z)
      ![2 * ζ0 ^ 4 + ζ1 ^ 4, ζ0 ^ 4 + 2 * ζ1 ^ 4, ζ0 ^ 4 + 2 * ζ1 ^ 4, 2 * ζ0 ^ 4 + ζ1 ^ 4]
      ((ζ0 - ζ1) * σ * (ζ0 ^ 2 + ζ1 ^ 2)) (-((ζ0 - ζ1) * σ * (ζ0 ^ 2 + ζ1 ^ 2))) (-3 * (ζ0 ^ 2 + ζ1 ^ 2))
      (neptuneExtRound neptuneExt4 (C γ) (fun i => C (c i)) q) := by
  obtain ⟨hw, hd0, hd1, hs⟩ := h
  have e2 : z + z = 2 * z := by omega
  have e4 : 2 * z + 2 * z = 4 * z := by omega
  have e5 : z + s + 2 * z = 3 * z + s := by omega
  have hz0 := hd0.mul hd0
  have hz1 := hd1.mul hd1
  rw [e2] at hz0 hz1
  have hl0 := (hw 0).sub ((hw 1).smul 2)
  have hl1 := (hw 2).sub ((hw 3).smul 2)
  have hu0 := ((hl0.low h1).sub hz0).add (Co.const (show 0 < 2 * z by omega) γ)
  have hu1 := ((hl1.low h1).sub hz1).add (Co.const (show 0 < 2 * z by omega) γ)
  have huu0 := hu0.mul hu0
  have huu1 := hu1.mul hu1
  rw [e4] at huu0 huu1
  have hL : ∀ (a b k ζ : F) (i j : Fin (2 * 2)), Co z ζ (q i - q j) →
      Co (2 * z) (k * (ζ * ζ)) (C a * q i + C b * q j + C k * ((q i - q j) * (q i - q j))) := by
    intro a b k ζ i j hij
    have := hij.mul hij
    rw [e2] at this
    have h' := ((((hw i).smul a).add ((hw j).smul b)).low h1).add (this.smul k)
    rwa [zero_add] at h'
  have hA0 := hL 2 1 3 ζ0 0 1 hd0
  have hB0 := hL 1 3 4 ζ0 0 1 hd0
  have hA1 := hL 2 1 3 ζ1 2 3 hd1
  have hB1 := hL 1 3 4 ζ1 2 3 hd1
  have hm : 2 * z < 4 * z := by omega
  have hy10 := (hA0.low hm).add huu0
  have hy20 := (hB0.low hm).add huu0
  have hy11 := (hA1.low hm).add huu1
  have hy21 := (hB1.low hm).add huu1
  have hdu := ((hl0.sub hl1).low h2).sub ((hd0.sub hd1).mul hs)
  have hprod := hdu.mul (hu0.add hu1)
  rw [e5] at hprod
  have hm2 : 2 * z < 3 * z + s := by omega
  have hk : ∀ (m : Nat) (k : F), 0 < z → 2 * z ≤ m → Co m 0 (C k) := fun m k _ _ => Co.const (by omega) k
  have c2 : C (2 : F) = 2 := map_ofNat C 2
  have c3 : C (3 : F) = 3 := map_ofNat C 3
  have c4 : C (4 : F) = 4 := map_ofNat C 4
  have c6 : C (6 : F) = 6 := map_ofNat C 6
  rw [neptuneExt4_apply]
  simp only [neptunePair]
  refine ⟨fun i => ?_, ?_, ?_, ?_⟩
  · fin_cases i
    · exact (((hy10.smul 2).add hy11).add (hk _ (c 0) hz hm.le)).of_eq (by simp; ring) (by simp [c2, c3, c4]; ring)
    · exact ((hy20.add (hy21.smul 2)).add (hk _ (c 1) hz hm.le)).of_eq (by simp; ring) (by simp [c2, c3, c4]; ring)
    · exact ((hy10.add (hy11.smul 2)).add (hk _ (c 2) hz hm.le)).of_eq (by simp; ring) (by simp [c2, c3, c4]; ring)
    · exact (((hy20.smul 2).add hy21).add (hk _ (c 3) hz hm.le)).of_eq (by simp; ring) (by simp [c2, c3, c4]; ring)
  · exact (((((hA0.smul 2).add hA1).sub (hB0.add (hB1.smul 2))).low hm2).add hprod |>.add
      (hk _ (c 0 - c 1) hz hm2.le)).of_eq (by ring) (by simp only [map_sub]; simp [c2, c3, c4]; ring)
  · exact ((((((hA0.add (hA1.smul 2)).sub ((hB0.smul 2).add hB1)).low hm2).sub hprod)) |>.add
      (hk _ (c 2 - c 3) hz hm2.le)).of_eq (by ring) (by simp only [map_sub]; simp [c2, c3, c4]; ring)
  · exact (((hu0.add hu1).smul 3).add (hk _ (c 0 - c 1 + (c 2 - c 3) - 6 * γ) hz (le_refl _))).of_eq (by ring)
      (by simp only [map_sub, map_add, map_mul]; simp [c2, c3, c4, c6]; ring)

/-- After the first round of a half: opposite differences of the two pairs. -/
theorem Quad.rounds {m : Nat} (hm : 0 < m) {v : Fin (2 * 2) → F} {f : Fin (2 * 2) → F[X]} (h : Lead m v f)
    (h6 : (6 : F) ≠ 0) (hv : (v 0 - v 1) ^ 4 - (v 2 - v 3) ^ 4 ≠ 0) (γ : F) (c : Nat → Fin (2 * 2) → F) (b : Nat) :
    ∀ r, ∃ z s w ζ σ, Quad (neptune4Degree (r + 1) * m) z s w ζ (-ζ) σ
      (Spec.rounds (fun r => neptuneExtRound neptuneExt4 (C γ) (fun i => C (c r i))) b (r + 1) f) ∧
      0 < z ∧ neptune4Degree (r + 2) * m = 4 * z ∧ neptune4Degree (r + 3) * m = 4 * (3 * z + s) ∧
      neptune4Degree (r + 1) * m < 2 * z ∧ neptune4Degree (r + 1) * m < z + s ∧ ζ ≠ 0 ∧ σ ≠ 0 ∧
      (r ≠ 0 → ∀ i, w i ≠ 0) := by
  have h2 : (2 : F) ≠ 0 := fun h => h6 (by rw [show (6 : F) = 2 * 3 by norm_num, h, zero_mul])
  have h3 : (3 : F) ≠ 0 := fun h => h6 (by rw [show (6 : F) = 2 * 3 by norm_num, h, mul_zero])
  intro r
  induction r with
  | zero =>
    have hq := (Quad.of_lead h).step hm (by omega) (by omega) γ (c b)
    have e : (v 0 - v 1) ^ 4 - (v 2 - v 3) ^ 4 = (v 0 - v 1 - (v 2 - v 3)) * (v 0 - v 1 + (v 2 - v 3)) *
        ((v 0 - v 1) ^ 2 + (v 2 - v 3) ^ 2) := by ring
    rw [e] at hv
    have hv2 := right_ne_zero_of_mul hv
    have e1 : 3 * m + m = 4 * m := by omega
    rw [e1] at hq
    refine ⟨4 * m, 2 * m, _, _, _, hq, by omega, ?_, ?_, ?_, ?_, hv, mul_ne_zero (neg_ne_zero.mpr h3) hv2,
      fun h => absurd rfl h⟩
    all_goals simp only [neptune4Degree]; omega
  | succ r ih =>
    obtain ⟨z, s, w, ζ, σ, hq, hz, e1, e2, l1, l2, hζ, hσ, -⟩ := ih
    have hn := hq.step hz l1 l2 γ (c (b + (r + 1)))
    rw [← e1] at hn
    have hsq : ζ ^ 2 + (-ζ) ^ 2 ≠ 0 := by
      rw [show ζ ^ 2 + (-ζ) ^ 2 = 2 * ζ ^ 2 by ring]
      exact mul_ne_zero h2 (pow_ne_zero 2 hζ)
    refine ⟨3 * z + s, 2 * z, _, _, _, hn, by omega, e2, ?_, ?_, ?_, ?_, ?_, fun _ i => ?_⟩
    · have : neptune4Degree (r + 1 + 3) = 3 * neptune4Degree (r + 3) + 2 * neptune4Degree (r + 2) := rfl
      rw [this, Nat.add_mul, Nat.mul_assoc, Nat.mul_assoc, e1, e2]
      omega
    · rw [e1]; omega
    · rw [e1]; omega
    · refine mul_ne_zero (mul_ne_zero ?_ hσ) hsq
      rw [show ζ - -ζ = 2 * ζ by ring]
      exact mul_ne_zero h2 hζ
    · exact mul_ne_zero (neg_ne_zero.mpr h3) hsq
    · have h34 : 3 * ζ ^ 4 ≠ 0 := mul_ne_zero h3 (pow_ne_zero 4 hζ)
      have e3 : 2 * ζ ^ 4 + (-ζ) ^ 4 = 3 * ζ ^ 4 := by ring
      have e4 : ζ ^ 4 + 2 * (-ζ) ^ 4 = 3 * ζ ^ 4 := by ring
      rw [e3, e4]
      fin_cases i <;> exact h34

/-- Neptune of width 4 on a line: degree and leading coefficients. -/
theorem neptune4_lead {d : Nat} (hd : 1 < d) (h30 : (30 : F) ≠ 0) (mu : Nat → F) (hmu : mu 0 ≠ 0) (hmu1 : mu 0 + 1 ≠ 0)
    (γ : F) (rf rp : Nat) (c : Nat → Nat → F) (x : Fin (2 * 2) → F) (j : Fin (2 * 2)) :
    ∃ w : Fin (2 * 2) → F, (∀ i, w i ≠ 0) ∧
      Lead (neptune4Degree (rf + 2) ^ 2 * d ^ (rp + 1)) w
        (Spec.neptune ((neptuneExt4 (F := F)).map C) ((neptuneInternal (2 * 2) mu).map C) d (C γ) (rf + 2) (rp + 1)
          (fun r i => C (c r i)) (Degree.line x j)) := by
  have h6 : (6 : F) ≠ 0 := fun h => h30 (by rw [show (30 : F) = 6 * 5 by norm_num, h, zero_mul])
  have h15 : (15 : F) ≠ 0 := fun h => h30 (by rw [show (30 : F) = 15 * 2 by norm_num, h, zero_mul])
  have h0 := (Lead.line x j).mulVec neptuneExt4
  rw [Symbolic.neptuneExt4_map] at h0 ⊢
  have hv : ((neptuneExt4 *ᵥ Pi.single j (1 : F)) 0 - (neptuneExt4 *ᵥ Pi.single j (1 : F)) 1) ^ 4 -
      ((neptuneExt4 *ᵥ Pi.single j (1 : F)) 2 - (neptuneExt4 *ᵥ Pi.single j (1 : F)) 3) ^ 4 ≠ 0 := by
    intro h
    apply h15
    fin_cases j <;> simp [neptuneExt4, parityMatrix] at h <;> first
      | (rw [← h]; norm_num; done)
      | (rw [← neg_eq_zero, ← h]; norm_num; done)
  obtain ⟨z, s, w, ζ, σ, hq, -, -, -, -, -, -, -, hw⟩ := Quad.rounds Nat.one_pos h0 h6 hv γ (fun r i => c r i) 0 (rf + 1)
  have hpos : 0 < neptune4Degree (rf + 2) := neptune4Degree_pos _
  have h1 := hq.lead
  have h2 := Lead.rounds hd (fun r D v f hD h => h.int hD hd (neptuneInternal (2 * 2) mu) fun i : Fin (2 * 2) => c r i)
    (rf + 2) (by rw [Nat.mul_one]; exact hpos) h1 (rp + 1)
  have hcol : neptuneInternal (2 * 2) mu (⟨0, by omega⟩ : Fin (2 * 2)) ⟨0, by omega⟩ ≠ 0 := by
    unfold neptuneInternal
    simpa using hmu1
  obtain ⟨k, hk, ek⟩ := leadPart_iterate (by omega) (neptuneInternal (2 * 2) mu) d hcol w (hw (by omega) _) rp
  rw [ek] at h2
  have hv2 : ((k • fun i : Fin (2 * 2) => neptuneInternal (2 * 2) mu i ⟨0, by omega⟩) 0 -
      (k • fun i : Fin (2 * 2) => neptuneInternal (2 * 2) mu i ⟨0, by omega⟩) 1) ^ 4 -
      ((k • fun i : Fin (2 * 2) => neptuneInternal (2 * 2) mu i ⟨0, by omega⟩) 2 -
      (k • fun i : Fin (2 * 2) => neptuneInternal (2 * 2) mu i ⟨0, by omega⟩) 3) ^ 4 ≠ 0 := by
    have e : ((k • fun i : Fin (2 * 2) => neptuneInternal (2 * 2) mu i ⟨0, by omega⟩) 0 -
      (k • fun i : Fin (2 * 2) => neptuneInternal (2 * 2) mu i ⟨0, by omega⟩) 1) ^ 4 -
      ((k • fun i : Fin (2 * 2) => neptuneInternal (2 * 2) mu i ⟨0, by omega⟩) 2 -
      (k • fun i : Fin (2 * 2) => neptuneInternal (2 * 2) mu i ⟨0, by omega⟩) 3) ^ 4 = (k * mu 0) ^ 4 := by
      have e0 : neptuneInternal (2 * 2) mu 0 ⟨0, by omega⟩ = mu 0 + 1 := by
        unfold neptuneInternal
        simp
      have e1 : neptuneInternal (2 * 2) mu 1 ⟨0, by omega⟩ = 1 := by
        unfold neptuneInternal
        simp
      have e2 : neptuneInternal (2 * 2) mu 2 ⟨0, by omega⟩ = 1 := by
        unfold neptuneInternal
        simp
      have e3 : neptuneInternal (2 * 2) mu 3 ⟨0, by omega⟩ = 1 := by
        unfold neptuneInternal
        simp
      simp only [Pi.smul_apply, smul_eq_mul, e0, e1, e2, e3]
      ring
    rw [e]
    exact pow_ne_zero 4 (mul_ne_zero hk hmu)
  obtain ⟨z', s', w', ζ', σ', hq', -, -, -, -, -, -, -, hw'⟩ := Quad.rounds
    (Nat.mul_pos (pow_pos (by omega) _) (by rw [Nat.mul_one]; exact hpos)) h2 h6 hv2 γ (fun r i => c r i)
    (rf + 2 + (rp + 1)) (rf + 1)
  refine ⟨w', hw' (by omega), ?_⟩
  have := hq'.lead
  have e : neptune4Degree (rf + 1 + 1) * (d ^ (rp + 1) * (neptune4Degree (rf + 1 + 1) * 1)) =
      neptune4Degree (rf + 2) ^ 2 * d ^ (rp + 1) := by ring
  rw [e] at this
  exact this

end neptune4Exact

section neptuneCheck

/-- `leadExt` on integers: `p` is the modulus. -/
def extStepN (p t : Nat) (M : Nat → Nat → Nat) (v : List Nat) : List Nat :=
  (List.range t).map fun i => ((List.range t).map fun j =>
    M i j * (v.getD (2 * (j / 2)) 0 + (p - v.getD (2 * (j / 2) + 1) 0 % p)) ^ 4).sum % p

theorem castV_extStepN (p k : Nat) [Fact p.Prime] (M : Nat → Nat → Nat) (v : List Nat) :
    castV p (2 * k) (extStepN p (2 * k) M v) =
      leadExt (Matrix.of fun i j : Fin (2 * k) => ((M i j : Nat) : ZMod p)) (castV p (2 * k) v) := by
  unfold extStepN
  rw [castV_map]
  funext i
  rw [ZMod.natCast_mod, sum_range_map]
  unfold leadExt Matrix.mulVec dotProduct castV
  push_cast
  refine Finset.sum_congr rfl fun j _ => ?_
  have hp : 0 < p := (Fact.out : p.Prime).pos
  rw [Nat.cast_sub (Nat.mod_lt _ hp).le, ZMod.natCast_self, ZMod.natCast_mod, zero_sub, ← sub_eq_add_neg]
  rfl

theorem castV_ext_iterate (p k : Nat) [Fact p.Prime] (M : Nat → Nat → Nat) (v : List Nat) :
    ∀ n, castV p (2 * k) ((extStepN p (2 * k) M)^[n] v) =
      (leadExt (Matrix.of fun i j : Fin (2 * k) => ((M i j : Nat) : ZMod p)))^[n] (castV p (2 * k) v) := by
  intro n
  induction n with
  | zero => rfl
  | succ n ih => rw [Function.iterate_succ_apply', Function.iterate_succ_apply', castV_extStepN, ih]

/-- The conditions of `neptune_lead_ne_zero` on integers. -/
def neptuneCheck (p k rf : Nat) (E : Nat → Nat → Nat) : Bool :=
  ((List.range (2 * k)).all fun j =>
    ((extStepN p (2 * k) E)^[rf + 1] ((List.range (2 * k)).map fun i => E i j)).getD 0 0 % p != 0) &&
  (let w := (extStepN p (2 * k) E)^[rf] ((List.range (2 * k)).map fun i => E i 0 + E i 1)
   (List.range (2 * k)).all fun i => w.getD i 0 % p != 0)

theorem neptuneCheck_sound {p k rf rp d : Nat} [Fact p.Prime] (hk : 0 < k) (hrp : 0 < rp) {E : Nat → Nat → Nat}
    (h : neptuneCheck p k rf E = true) (mu : Nat → ZMod p) (hmu : mu 0 ≠ 0) (hmu1 : mu 0 + 1 ≠ 0) (j i : Fin (2 * k)) :
    (leadExt (Matrix.of fun i j : Fin (2 * k) => ((E i j : Nat) : ZMod p)))^[rf + 1]
      ((leadPart (neptuneInternal (2 * k) mu) d)^[rp]
        ((leadExt (Matrix.of fun i j : Fin (2 * k) => ((E i j : Nat) : ZMod p)))^[rf + 1]
          ((Matrix.of fun i j : Fin (2 * k) => ((E i j : Nat) : ZMod p)) *ᵥ Pi.single j 1))) i ≠ 0 := by
  simp only [neptuneCheck, Bool.and_eq_true, List.all_eq_true, List.mem_range] at h
  obtain ⟨h1, h3⟩ := h
  refine neptune_lead_ne_zero hk _ mu hrp _ hmu hmu1 ?_ ?_ i
  · have := castV_ext_iterate p k E ((List.range (2 * k)).map fun i => E i j) (rf + 1)
    rw [castV_map] at this
    have e : ((Matrix.of fun i j : Fin (2 * k) => ((E i j : Nat) : ZMod p)) *ᵥ Pi.single j 1) =
        fun i : Fin (2 * k) => ((E i j : Nat) : ZMod p) := by
      funext i
      simp
    rw [e, ← this]
    exact cast_ne_zero (h1 j j.isLt)
  · intro i
    have := castV_ext_iterate p k E ((List.range (2 * k)).map fun i => E i 0 + E i 1) rf
    rw [castV_map] at this
    have e : ((Matrix.of fun i j : Fin (2 * k) => ((E i j : Nat) : ZMod p)) *ᵥ firstPair k) =
        fun i : Fin (2 * k) => ((E i 0 + E i 1 : Nat) : ZMod p) := by
      funext i
      unfold firstPair Matrix.mulVec dotProduct
      have h0 : (0 : Nat) < 2 * k := by omega
      have h1 : (1 : Nat) < 2 * k := by omega
      rw [← Finset.sum_subset (Finset.subset_univ {(⟨0, h0⟩ : Fin (2 * k)), ⟨1, h1⟩})]
      · rw [Finset.sum_pair (by simp)]
        simp
      · intro x _ hx
        simp only [Finset.mem_insert, Finset.mem_singleton, not_or, Fin.ext_iff] at hx
        beta_reduce
        rw [if_neg (by omega), mul_zero]
    rw [e, ← this]
    exact cast_ne_zero (h3 i i.isLt)

end neptuneCheck

end Degree

end ZkHash
