import Verif.Spec.Symbolic
import Verif.Spec.Lines
import Mathlib.FieldTheory.ChevalleyWarning
import Mathlib.Algebra.Polynomial.Taylor
import Mathlib.Algebra.Polynomial.Roots
import Mathlib.Data.Set.Card

set_option autoImplicit false

/-!
# Sums over lines, preimages on lines, differences on lines
-/

namespace ZkHash.Lines

open Spec

variable {F : Type} [Field F]

/-- Substituting polynomials of degree at most 1 does not raise the total degree. -/
theorem totalDegree_aeval {σ τ : Type} [Fintype σ] (f : σ → MvPolynomial τ F) (hf : ∀ i, (f i).totalDegree ≤ 1)
    (p : MvPolynomial σ F) : (MvPolynomial.aeval f p).totalDegree ≤ p.totalDegree := by
  rw [MvPolynomial.aeval_def, MvPolynomial.eval₂_eq]
  refine MvPolynomial.totalDegree_finsetSum_le fun e he => ?_
  refine (MvPolynomial.totalDegree_mul _ _).trans ?_
  rw [MvPolynomial.algebraMap_eq, MvPolynomial.totalDegree_C, zero_add]
  refine (MvPolynomial.totalDegree_finsetProd _ _).trans ?_
  refine le_trans (Finset.sum_le_sum fun i _ => ?_) (MvPolynomial.le_totalDegree he)
  refine (MvPolynomial.totalDegree_pow _ _).trans ?_
  calc e i * (f i).totalDegree ≤ e i * 1 := Nat.mul_le_mul_left _ (hf i)
    _ = e i := mul_one _

theorem getElem?_ofFn {t : Nat} (f : Fin t → F) {i : Nat} (hi : i < t) : (List.ofFn f)[i]? = some (f ⟨i, hi⟩) := by
  simp [List.getElem?_ofFn, hi]

/-- The sum over an affine set, weighted by a polynomial. -/
theorem zero_sum [Fintype F] {t k D : Nat} {run : List F → Option (List F)}
    {sym : List (MvPolynomial (Fin t) F) → Option (List (MvPolynomial (Fin t) F))} {y : List (MvPolynomial (Fin t) F)}
    (h : FullRun run sym y) (hD : ∀ q ∈ y, q.totalDegree ≤ D) (x : Fin t → F) (v : Fin k → Fin t → F) :
    ∃ out : (Fin k → F) → Fin t → F, (∀ u, run (List.ofFn fun l => x l + ∑ m, u m * v m l) = some (List.ofFn (out u))) ∧
      ∀ g : MvPolynomial (Fin k) F, g.totalDegree + D < (Fintype.card F - 1) * k →
        ∑ u, MvPolynomial.eval u g • out u = 0 := by
  obtain ⟨-, hlen, hrun⟩ := h
  let pt : (Fin k → F) → Fin t → F := fun u l => x l + ∑ m, u m * v m l
  refine ⟨fun u i => MvPolynomial.eval (pt u) (y[i.val]'(hlen.symm ▸ i.isLt)), fun u => ?_, fun g hg => ?_⟩
  · rw [show (fun l => x l + ∑ m, u m * v m l) = pt u from rfl, hrun (pt u)]
    congr 1
    refine List.ext_getElem (by simp [hlen]) fun i h1 h2 => ?_
    simp
  · funext i
    rw [Finset.sum_apply]
    let f : Fin t → MvPolynomial (Fin k) F := fun l =>
      MvPolynomial.C (x l) + ∑ m, MvPolynomial.X m * MvPolynomial.C (v m l)
    have hf : ∀ l, (f l).totalDegree ≤ 1 := by
      intro l
      refine (MvPolynomial.totalDegree_add _ _).trans (max_le (by simp) ?_)
      refine MvPolynomial.totalDegree_finsetSum_le fun m _ => ?_
      refine (MvPolynomial.totalDegree_mul _ _).trans ?_
      simp
    let q := y[i.val]'(hlen.symm ▸ i.isLt)
    have hq : q.totalDegree ≤ D := hD q (List.getElem_mem _)
    have hev : ∀ u, MvPolynomial.eval u (g * MvPolynomial.aeval f q) =
        (MvPolynomial.eval u g • fun i : Fin t => MvPolynomial.eval (pt u) (y[i.val]'(hlen.symm ▸ i.isLt))) i := by
      intro u
      rw [map_mul, Pi.smul_apply, smul_eq_mul]
      congr 1
      have : MvPolynomial.eval u (MvPolynomial.aeval f q) = MvPolynomial.eval (fun l => MvPolynomial.eval u (f l)) q := by
        rw [MvPolynomial.aeval_def, MvPolynomial.algebraMap_eq]
        rw [MvPolynomial.eval_eval₂, show (MvPolynomial.eval u).comp MvPolynomial.C = RingHom.id F from
          RingHom.ext fun a => MvPolynomial.eval_C a]
        rfl
      rw [this]
      congr 2
      funext l
      simp [f, pt]
    rw [← Finset.sum_congr rfl fun u _ => hev u]
    refine MvPolynomial.sum_eval_eq_zero _ (lt_of_le_of_lt ?_ (by rw [Fintype.card_fin]; exact hg))
    exact (MvPolynomial.totalDegree_mul _ _).trans (Nat.add_le_add_left ((totalDegree_aeval f hf q).trans hq) _)

/-- The same over a line, with the powers as weights. -/
theorem zero_sum_line [Fintype F] {t D : Nat} {run : List F → Option (List F)}
    {sym : List (MvPolynomial (Fin t) F) → Option (List (MvPolynomial (Fin t) F))} {y : List (MvPolynomial (Fin t) F)}
    (h : FullRun run sym y) (hD : ∀ q ∈ y, q.totalDegree ≤ D) (x v : Fin t → F) :
    ∃ out : F → Fin t → F, (∀ u, run (List.ofFn fun l => x l + u * v l) = some (List.ofFn (out u))) ∧
      ∀ m, m + D < Fintype.card F - 1 → ∑ u, u ^ m • out u = 0 := by
  obtain ⟨out, h1, h2⟩ := zero_sum (k := 1) h hD x fun _ => v
  refine ⟨fun u => out fun _ => u, fun u => ?_, fun m hm => ?_⟩
  · have := h1 fun _ => u
    simpa using this
  · have := h2 (MvPolynomial.X 0 ^ m) (by
      have := MvPolynomial.totalDegree_pow (MvPolynomial.X (R := F) (0 : Fin 1)) m
      rw [MvPolynomial.totalDegree_X] at this
      omega)
    rw [← this]
    refine Fintype.sum_equiv (Equiv.funUnique (Fin 1) F).symm _ _ fun u => ?_
    simp
    rfl

/-- A polynomial that is not constant takes a value at most as often as its degree. -/
theorem values {t D : Nat} {run : List F → Option (List F)}
    {sym : List (Polynomial F) → Option (List (Polynomial F))} {x : Fin t → F} {j : Fin t} {y : List (Polynomial F)}
    (h : LineRun run sym x j y) (hD : ∀ q ∈ y, q.natDegree = D) (h0 : 0 < D) (i : Nat) (c : F) :
    (valuesWith run x j i c).Finite ∧ (valuesWith run x j i c).ncard ≤ D := by
  classical
  obtain ⟨-, hlen, hrun⟩ := h
  by_cases hi : i < y.length
  · have hq := hD _ (List.getElem_mem hi)
    have hsub : valuesWith run x j i c ⊆ ((y[i] - Polynomial.C c).roots.toFinset : Set F) := by
      rintro a ⟨out, he, hc⟩
      rw [hrun a, Option.some.injEq] at he
      subst he
      rw [List.getElem?_map, List.getElem?_eq_getElem hi, Option.map_some, Option.some.injEq] at hc
      rw [Finset.mem_coe, Multiset.mem_toFinset, Polynomial.mem_roots', Polynomial.IsRoot]
      refine ⟨fun e => ?_, by simp [hc]⟩
      rw [sub_eq_zero] at e
      rw [e, Polynomial.natDegree_C] at hq
      omega
    refine ⟨(Finset.finite_toSet _).subset hsub, (Set.ncard_le_ncard hsub (Finset.finite_toSet _)).trans ?_⟩
    rw [Set.ncard_coe_finset]
    refine (Multiset.toFinset_card_le _).trans ((Polynomial.card_roots' _).trans ?_)
    rw [Polynomial.natDegree_sub_C, hq]
  · have : valuesWith run x j i c = ∅ := by
      ext a
      simp only [Set.mem_empty_iff_false, iff_false]
      rintro ⟨out, he, hc⟩
      rw [hrun a, Option.some.injEq] at he
      subst he
      rw [List.getElem?_eq_none (by simpa using hi)] at hc
      cases hc
    simp [this]

/-- The difference of the values at distance `δ` is a polynomial of degree one less. -/
theorem shift_ne {q : Polynomial F} {D : Nat} (hq : q.natDegree = D) (h0 : 2 ≤ D) (hDF : (D : F) ≠ 0) {δ : F} (hδ : δ ≠ 0)
    (β : F) : Polynomial.taylor δ q - q - Polynomial.C β ≠ 0 ∧
      (Polynomial.taylor δ q - q - Polynomial.C β).natDegree ≤ D - 1 := by
  have hlc : q.coeff D ≠ 0 := by
    rw [← hq]
    refine Polynomial.leadingCoeff_ne_zero.mpr fun e => ?_
    rw [e, Polynomial.natDegree_zero] at hq
    omega
  constructor
  · intro e
    have hc := congrArg (fun r => Polynomial.coeff r (D - 1)) e
    simp only [Polynomial.coeff_sub, Polynomial.coeff_zero, Polynomial.taylor_coeff] at hc
    rw [Polynomial.coeff_C_of_ne_zero (by omega), sub_zero] at hc
    have hn : (Polynomial.hasseDeriv (D - 1) q).natDegree ≤ 1 :=
      (Polynomial.natDegree_hasseDeriv_le q (D - 1)).trans (by omega)
    rw [Polynomial.eq_X_add_C_of_natDegree_le_one hn, Polynomial.hasseDeriv_coeff, Polynomial.hasseDeriv_coeff,
      show 1 + (D - 1) = D by omega, zero_add, Nat.choose_self, Nat.choose_symm_of_eq_add (show D = (D - 1) + 1 by omega),
      Nat.choose_one_right] at hc
    simp only [Nat.cast_one, one_mul, Polynomial.eval_add, Polynomial.eval_mul, Polynomial.eval_C, Polynomial.eval_X,
      add_sub_cancel_right] at hc
    exact mul_ne_zero (mul_ne_zero hDF hlc) hδ hc
  · refine Polynomial.natDegree_le_iff_coeff_eq_zero.mpr fun n hn => ?_
    rw [Polynomial.coeff_sub, Polynomial.coeff_sub, Polynomial.coeff_C_of_ne_zero (by omega), sub_zero]
    rcases Nat.lt_or_ge D n with h | h
    · rw [Polynomial.coeff_eq_zero_of_natDegree_lt (by rw [Polynomial.natDegree_taylor]; omega),
        Polynomial.coeff_eq_zero_of_natDegree_lt (by omega), sub_zero]
    · obtain rfl : n = D := by omega
      rw [Polynomial.taylor_coeff]
      have hn : (Polynomial.hasseDeriv n q).natDegree ≤ 0 :=
        (Polynomial.natDegree_hasseDeriv_le q n).trans (by omega)
      rw [Polynomial.eq_C_of_natDegree_le_zero hn, Polynomial.hasseDeriv_coeff]
      simp

theorem differences {t D : Nat} {run : List F → Option (List F)}
    {sym : List (Polynomial F) → Option (List (Polynomial F))} {x : Fin t → F} {j : Fin t} {y : List (Polynomial F)}
    (h : LineRun run sym x j y) (hD : ∀ q ∈ y, q.natDegree = D) (h0 : 2 ≤ D) (hDF : (D : F) ≠ 0) {δ : F} (hδ : δ ≠ 0)
    (i : Nat) (β : F) :
    (valuesWithDifference run x j δ i β).Finite ∧ (valuesWithDifference run x j δ i β).ncard ≤ D - 1 := by
  classical
  obtain ⟨-, hlen, hrun⟩ := h
  by_cases hi : i < y.length
  · obtain ⟨hne, hdeg⟩ := shift_ne (hD _ (List.getElem_mem hi)) h0 hDF hδ β
    have hsub : valuesWithDifference run x j δ i β ⊆
        ((Polynomial.taylor δ y[i] - y[i] - Polynomial.C β).roots.toFinset : Set F) := by
      rintro a ⟨out, out', c, c', he, he', hc, hc', hb⟩
      rw [hrun, Option.some.injEq] at he he'
      subst he he'
      rw [List.getElem?_map, List.getElem?_eq_getElem hi, Option.map_some, Option.some.injEq] at hc hc'
      rw [Finset.mem_coe, Multiset.mem_toFinset, Polynomial.mem_roots', Polynomial.IsRoot]
      refine ⟨hne, ?_⟩
      rw [Polynomial.eval_sub, Polynomial.eval_sub, Polynomial.taylor_eval, Polynomial.eval_C, hc', sub_eq_zero, ← hb, ← hc]
    refine ⟨(Finset.finite_toSet _).subset hsub, (Set.ncard_le_ncard hsub (Finset.finite_toSet _)).trans ?_⟩
    rw [Set.ncard_coe_finset]
    exact (Multiset.toFinset_card_le _).trans ((Polynomial.card_roots' _).trans hdeg)
  · have : valuesWithDifference run x j δ i β = ∅ := by
      ext a
      simp only [Set.mem_empty_iff_false, iff_false]
      rintro ⟨out, out', c, c', he, he', hc, hc', hb⟩
      rw [hrun, Option.some.injEq] at he
      subst he
      rw [List.getElem?_eq_none (by simpa using hi)] at hc
      cases hc
    simp [this]

end ZkHash.Lines
