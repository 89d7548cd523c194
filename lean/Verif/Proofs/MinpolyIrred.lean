import Mathlib.FieldTheory.Finite.Extension
import Mathlib.LinearAlgebra.Matrix.Charpoly.Minpoly
import Mathlib.LinearAlgebra.Matrix.ToLin
import Mathlib.LinearAlgebra.FiniteDimensional.Lemmas
import Mathlib.RingTheory.Polynomial.DegreeLT

set_option autoImplicit false

/-!
# Irreducible minimal polynomials over prime fields

Rabin's criterion for the minimal polynomial of a matrix, and what an irreducible minimal polynomial of full degree
says about invariant subspaces.
-/

namespace ZkHash

open Polynomial

namespace MinIrred

variable {p t : Nat} [Fact p.Prime]

/-- The minimal polynomial of `B` is irreducible and has degree `t`. -/
def Full (B : Matrix (Fin t) (Fin t) (ZMod p)) : Prop :=
  Irreducible (minpoly (ZMod p) B) ∧ (minpoly (ZMod p) B).natDegree = t

theorem integral (B : Matrix (Fin t) (Fin t) (ZMod p)) : IsIntegral (ZMod p) B :=
  Matrix.isIntegral B

theorem minpoly_natDegree_le (B : Matrix (Fin t) (Fin t) (ZMod p)) : (minpoly (ZMod p) B).natDegree ≤ t := by
  have h := natDegree_le_of_dvd (Matrix.minpoly_dvd_charpoly B) (Matrix.charpoly_monic B).ne_zero
  rwa [Matrix.charpoly_natDegree_eq_dim, Fintype.card_fin] at h

theorem aeval_unit_of_dvd {A : Type*} [CommRing A] {B : Matrix (Fin t) (Fin t) A} {h g : A[X]} (hd : h ∣ g)
    (hu : IsUnit (aeval B g)) : IsUnit (aeval B h) := by
  obtain ⟨c, rfl⟩ := hd
  rw [map_mul] at hu
  have hc : Commute (aeval B h) (aeval B c) := by
    show _ * _ = _ * _
    rw [← map_mul, ← map_mul, mul_comm]
  exact (hc.isUnit_mul_iff.mp hu).1

theorem rabin (ht : 0 < t) (B : Matrix (Fin t) (Fin t) (ZMod p)) (h1 : B ^ p ^ t = B)
    (h2 : ∀ q : Nat, q.Prime → q ∣ t → IsUnit (B ^ p ^ (t / q) - B)) : Full B := by
  haveI : NeZero t := ⟨ht.ne'⟩
  haveI : Nonempty (Fin t) := ⟨0⟩
  have hne : minpoly (ZMod p) B ≠ 0 := minpoly.ne_zero (integral B)
  have hnu : ¬ IsUnit (minpoly (ZMod p) B) := minpoly.not_isUnit _ _
  obtain ⟨h, hirr, g, hg⟩ := WfDvdMonoid.exists_irreducible_factor hnu hne
  have hcard : Nat.card (ZMod p) = p := Nat.card_zmod p
  have hdvd : h ∣ X ^ (Nat.card (ZMod p)) ^ t - X := by
    rw [hcard]
    refine (Dvd.intro g hg.symm).trans (minpoly.dvd _ _ ?_)
    simp [h1]
  have hdeg : h.natDegree ∣ t := hirr.natDegree_dvd_of_dvd_X_pow_card_pow_sub_X hdvd
  have hpos : 0 < h.natDegree := hirr.natDegree_pos
  have heq : h.natDegree = t := by
    by_contra hlt
    obtain ⟨k, hk⟩ := hdeg
    have hk1 : k ≠ 1 := by rintro rfl; exact hlt (by omega)
    obtain ⟨q, hq, hqk⟩ := Nat.exists_prime_and_dvd hk1
    obtain ⟨l, rfl⟩ := hqk
    have htq : t / q = h.natDegree * l := by
      rw [hk, show h.natDegree * (q * l) = q * (h.natDegree * l) by ring, Nat.mul_div_cancel_left _ hq.pos]
    have hqt : q ∣ t := ⟨h.natDegree * l, by rw [hk]; ring⟩
    have hd2 : h ∣ X ^ (Nat.card (ZMod p)) ^ (t / q) - X :=
      hirr.natDegree_dvd_iff_dvd_X_pow_card_pow_sub_X.mp ⟨l, htq⟩
    rw [hcard] at hd2
    have hu : IsUnit (aeval B h) := by
      refine aeval_unit_of_dvd hd2 ?_
      simpa using h2 q hq hqt
    have hz : aeval B g = 0 := by
      have := minpoly.aeval (ZMod p) B
      rw [hg, map_mul] at this
      exact (hu.mul_right_eq_zero).mp this
    have hg0 : g ≠ 0 := by rintro rfl; exact hne (by rw [hg, mul_zero])
    have h3 := natDegree_le_of_dvd (minpoly.dvd _ _ hz) hg0
    rw [hg, natDegree_mul hirr.ne_zero hg0] at h3
    omega
  have hg0 : g ≠ 0 := by rintro rfl; exact hne (by rw [hg, mul_zero])
  have hle := minpoly_natDegree_le B
  rw [hg, natDegree_mul hirr.ne_zero hg0] at hle
  have hgu : IsUnit g := by
    rw [isUnit_iff_degree_eq_zero, degree_eq_natDegree hg0]
    have : g.natDegree = 0 := by omega
    rw [this]; rfl
  constructor
  · rw [hg]
    exact (associated_mul_unit_right h g hgu).irreducible hirr
  · rw [hg, natDegree_mul hirr.ne_zero hg0]; omega

/-- With a full irreducible minimal polynomial, every nonzero polynomial expression is invertible. -/
theorem Full.isUnit {B : Matrix (Fin t) (Fin t) (ZMod p)} (h : Full B) (r : (ZMod p)[X]) (hr : aeval B r ≠ 0) :
    IsUnit (aeval B r) := by
  have hnd : ¬ minpoly (ZMod p) B ∣ r := by
    intro hd
    obtain ⟨c, rfl⟩ := hd
    exact hr (by rw [map_mul, minpoly.aeval, zero_mul])
  obtain ⟨a, b, hab⟩ := (h.1.coprime_iff_not_dvd).mpr hnd
  have h1 := congrArg (aeval B) hab
  rw [map_add, map_mul, map_mul, minpoly.aeval, mul_zero, zero_add, map_one] at h1
  refine ⟨⟨aeval B r, aeval B b, ?_, h1⟩, rfl⟩
  rw [← map_mul, mul_comm, map_mul, h1]

theorem Full.aeval_ne_zero {B : Matrix (Fin t) (Fin t) (ZMod p)} (h : Full B) {r : (ZMod p)[X]} (hr : r ≠ 0)
    (hd : r.natDegree < t) : aeval B r ≠ 0 := by
  intro hz
  have := natDegree_le_of_dvd (minpoly.dvd _ _ hz) hr
  rw [h.2] at this
  omega

/-- The powers of a matrix with a full irreducible minimal polynomial. -/
theorem Full.pow (ht : 0 < t) {B : Matrix (Fin t) (Fin t) (ZMod p)} (h : Full B) (h1 : B ^ p ^ t = B) (i : Nat)
    (h2 : ∀ q : Nat, q.Prime → q ∣ t → (B ^ p ^ (t / q)) ^ i ≠ B ^ i) : Full (B ^ i) := by
  refine rabin ht _ ?_ fun q hq hqt => ?_
  · rw [← pow_mul, mul_comm, pow_mul, h1]
  · have e : (B ^ i) ^ p ^ (t / q) - B ^ i = aeval B ((X ^ p ^ (t / q)) ^ i - X ^ i : (ZMod p)[X]) := by
      simp [← pow_mul, mul_comm]
    rw [e]
    refine h.isUnit _ ?_
    intro hz
    refine h2 q hq hqt (sub_eq_zero.mp ?_)
    simpa using hz

/-- A matrix with a full irreducible minimal polynomial has no invariant subspaces but the trivial ones. -/
theorem Full.no_invariant {B : Matrix (Fin t) (Fin t) (ZMod p)} (h : Full B)
    (W : Submodule (ZMod p) (Fin t → ZMod p)) (hW : ∀ w ∈ W, B.mulVec w ∈ W) : W = ⊥ ∨ W = ⊤ := by
  by_cases hb : W = ⊥
  · exact Or.inl hb
  right
  obtain ⟨w, hw, hw0⟩ := (Submodule.ne_bot_iff W).mp hb
  have hpow : ∀ n : Nat, (B ^ n).mulVec w ∈ W := by
    intro n
    induction n with
    | zero => simpa using hw
    | succ n ih => rw [pow_succ', ← Matrix.mulVec_mulVec]; exact hW _ ih
  have hpoly : ∀ r : (ZMod p)[X], (aeval B r).mulVec w ∈ W := by
    intro r
    induction r using Polynomial.induction_on' with
    | add a b ha hb => rw [map_add, Matrix.add_mulVec]; exact W.add_mem ha hb
    | monomial n a =>
      rw [aeval_monomial, Algebra.algebraMap_eq_smul_one, Matrix.smul_mul, one_mul, Matrix.smul_mulVec]
      exact W.smul_mem _ (hpow n)
  let φ : (degreeLT (ZMod p) t) →ₗ[ZMod p] W :=
    { toFun := fun r => ⟨(aeval B (r : (ZMod p)[X])).mulVec w, hpoly r⟩
      map_add' := by intro a b; apply Subtype.ext; simp [Matrix.add_mulVec]
      map_smul' := by intro c a; apply Subtype.ext; simp [Matrix.smul_mulVec] }
  have hinj : Function.Injective φ := by
    rw [← LinearMap.ker_eq_bot, LinearMap.ker_eq_bot']
    intro r hr
    by_contra hr0
    have hr0' : (r : (ZMod p)[X]) ≠ 0 := fun hc => hr0 (Subtype.ext hc)
    have hd : (r : (ZMod p)[X]).natDegree < t := by
      have := mem_degreeLT.mp r.2
      rwa [degree_eq_natDegree hr0', Nat.cast_lt] at this
    have hu := h.isUnit _ (h.aeval_ne_zero hr0' hd)
    have hz : (aeval B (r : (ZMod p)[X])).mulVec w = 0 := congrArg Subtype.val hr
    obtain ⟨u, hu⟩ := hu
    rw [← hu] at hz
    have := congrArg (fun v => (↑u⁻¹ : Matrix (Fin t) (Fin t) (ZMod p)).mulVec v) hz
    simp only [Matrix.mulVec_mulVec, Units.inv_mul, Matrix.one_mulVec, Matrix.mulVec_zero] at this
    exact hw0 this
  have hle := LinearMap.finrank_le_finrank_of_injective hinj
  rw [(degreeLTEquiv (ZMod p) t).finrank_eq, Module.finrank_fin_fun] at hle
  apply Submodule.eq_top_of_finrank_eq
  rw [Module.finrank_fin_fun]
  refine le_antisymm ?_ hle
  have := Submodule.finrank_le W
  rwa [Module.finrank_fin_fun] at this

end MinIrred

end ZkHash
