import Verif.Spec.Agreement
import Verif.Proofs.Directions
import Mathlib.RingTheory.Polynomial.Basic

set_option autoImplicit false

/-!
# How often a result word agrees with a polynomial of lower degree
-/

namespace ZkHash.Agreement

open Spec Polynomial

variable {F : Type} [Field F]

/-- A polynomial is not often equal to one of lower degree. -/
theorem roots_le {q s R : F[X]} {D : Nat} (hq : q.natDegree = D) (hs : s.natDegree < R.natDegree * D) :
    {a | R.eval (q.eval a) = s.eval a}.ncard ≤ R.natDegree * D := by
  classical
  have hdeg : (R.comp q).natDegree = R.natDegree * D := by rw [natDegree_comp, hq]
  have hsub : {a | R.eval (q.eval a) = s.eval a} ⊆ ((R.comp q - s).roots.toFinset : Set F) := by
    intro a ha
    rw [Set.mem_ofPred_eq] at ha
    rw [Finset.mem_coe, Multiset.mem_toFinset, mem_roots', IsRoot]
    refine ⟨fun e => ?_, by rw [eval_sub, eval_comp, ha, sub_self]⟩
    rw [sub_eq_zero] at e
    rw [e] at hdeg
    omega
  refine (Set.ncard_le_ncard hsub (Finset.finite_toSet _)).trans ?_
  rw [Set.ncard_coe_finset]
  refine (Multiset.toFinset_card_le _).trans ((card_roots' _).trans ?_)
  exact (natDegree_sub_le _ _).trans (max_le hdeg.le hs.le)

/-- What holds of at most `N` values of word `j`, whatever the other words are, holds of few inputs. -/
theorem count [Fintype F] {t : Nat} (W : (Fin t → F) → Prop) (j : Fin t) {N : Nat}
    (h : ∀ x, {a | W (Function.update x j a)}.ncard ≤ N) : {x | W x}.ncard ≤ N * Fintype.card F ^ (t - 1) := by
  classical
  have h' : ∀ x, (Finset.univ.filter fun a => W (Function.update x j a)).card ≤ N := by
    intro x
    have := h x
    rwa [Set.ncard_eq_toFinset_card', Set.toFinset_ofPred] at this
  have hshift : ∑ a : F, (Finset.univ.filter fun x : Fin t → F => W (Function.update x j a)).card =
      Fintype.card F * (Finset.univ.filter W).card := by
    have e : ∀ a : F, (Finset.univ.filter fun x : Fin t → F => W (Function.update x j a)).card =
        ∑ b : F, (Finset.univ.filter fun x : Fin t → F => W x ∧ x j = a).card := by
      intro a
      rw [Finset.card_eq_sum_card_fiberwise (f := fun x : Fin t → F => x j) (t := Finset.univ) (fun _ _ => by simp)]
      refine Finset.sum_congr rfl fun b _ => ?_
      refine Finset.card_bij (fun x _ => Function.update x j a) (fun x hx => ?_) (fun x hx y hy he => ?_) fun y hy => ?_
      · simp only [Finset.mem_filter, Finset.mem_univ, true_and] at hx ⊢
        exact ⟨hx.1, by simp⟩
      · simp only [Finset.mem_filter, Finset.mem_univ, true_and] at hx hy
        funext l
        by_cases hl : l = j
        · rw [hl, hx.2, hy.2]
        · simpa [Function.update_of_ne hl] using congrFun he l
      · simp only [Finset.mem_filter, Finset.mem_univ, true_and] at hy
        refine ⟨Function.update y j b, ?_, ?_⟩
        · simp only [Finset.mem_filter, Finset.mem_univ, true_and, Function.update_idem, Function.update_self, and_true]
          rw [← hy.2, Function.update_eq_self]
          exact hy.1
        · rw [Function.update_idem, ← hy.2, Function.update_eq_self]
    rw [Finset.sum_congr rfl fun a _ => e a]
    simp only [Finset.sum_const, Finset.card_univ, smul_eq_mul]
    rw [← Finset.mul_sum, Finset.card_eq_sum_card_fiberwise (s := Finset.univ.filter W) (f := fun x : Fin t → F => x j)
      (t := Finset.univ) (fun _ _ => by simp)]
    simp only [Finset.filter_filter]
  have hall : Fintype.card F * (Finset.univ.filter W).card ≤ N * Fintype.card F ^ t := by
    rw [← hshift]
    calc ∑ a : F, (Finset.univ.filter fun x : Fin t → F => W (Function.update x j a)).card
        = ∑ x : Fin t → F, (Finset.univ.filter fun a => W (Function.update x j a)).card := by
          simp only [Finset.card_filter]
          exact Finset.sum_comm
      _ ≤ ∑ _x : Fin t → F, N := Finset.sum_le_sum fun x _ => h' x
      _ = N * Fintype.card F ^ t := by
          rw [Finset.sum_const, Finset.card_univ, smul_eq_mul, mul_comm, Fintype.card_fun, Fintype.card_fin]
  rw [Set.ncard_eq_toFinset_card', Set.toFinset_ofPred]
  obtain ⟨s, rfl⟩ : ∃ s, t = s + 1 := ⟨t - 1, by have := j.isLt; omega⟩
  rw [pow_succ', Nat.mul_left_comm] at hall
  exact Nat.le_of_mul_le_mul_left hall Fintype.card_pos

/-- A polynomial in the words of the input, with all words but word `j` fixed. -/
noncomputable def onLine {t : Nat} (x : Fin t → F) (j : Fin t) (g : MvPolynomial (Fin t) F) : F[X] :=
  MvPolynomial.aeval (Function.update (fun l => C (x l)) j X) g

theorem onLine_degree {t : Nat} (x : Fin t → F) (j : Fin t) (g : MvPolynomial (Fin t) F) :
    (onLine x j g).natDegree ≤ g.totalDegree := by
  have := MvPolynomial.aeval_natDegree_le g le_rfl (Function.update (fun l => C (x l)) j X) (n := 1) fun i => by
    by_cases h : i = j
    · rw [h, Function.update_self]
      exact natDegree_X_le
    · rw [Function.update_of_ne h, natDegree_C]
      omega
  rwa [mul_one] at this

theorem onLine_eval {t : Nat} (x : Fin t → F) (j : Fin t) (g : MvPolynomial (Fin t) F) (a : F) :
    (onLine x j g).eval a = MvPolynomial.eval (Function.update x j a) g := by
  unfold onLine
  rw [← coe_evalRingHom, MvPolynomial.aeval_def, MvPolynomial.hom_eval₂, MvPolynomial.eval]
  have h1 : (evalRingHom a).comp (algebraMap F F[X]) = RingHom.id F := RingHom.ext fun c => by simp
  have h2 : (fun l => evalRingHom a (Function.update (fun l => C (x l)) j X l)) = Function.update x j a := by
    funext l
    by_cases h : l = j
    · rw [h]
      simp
    · simp [Function.update_of_ne h]
  rw [h1]
  show MvPolynomial.eval₂ (RingHom.id F) (fun l => evalRingHom a (Function.update (fun l => C (x l)) j X l)) g = _
  rw [h2]
  rfl

theorem related_line {t D : Nat} {run : List F → Option (List F)}
    {sym : List F[X] → Option (List F[X])} {x : Fin t → F} {j : Fin t} {y : List F[X]}
    (h : LineRun run sym x j y) (hD : ∀ q ∈ y, q.natDegree = D) (i : Nat) {R : F[X]}
    {g : MvPolynomial (Fin t) F} (hg : g.totalDegree < R.natDegree * D) :
    {a | Function.update x j a ∈ inputsRelated run i R g}.ncard ≤ R.natDegree * D := by
  obtain ⟨-, hlen, hrun⟩ := h
  by_cases hi : i < y.length
  · refine le_of_eq_of_le ?_ (roots_le (hD _ (List.getElem_mem hi)) ((onLine_degree x j g).trans_lt hg))
    congr 1
    ext a
    unfold inputsRelated
    simp [hrun, hi, onLine_eval]
  · have : {a | Function.update x j a ∈ inputsRelated run i R g} = ∅ := by
      ext a
      simp only [Set.mem_empty_iff_false, iff_false]
      rintro ⟨out, c, he, hc, -⟩
      rw [hrun a, Option.some.injEq] at he
      subst he
      rw [List.getElem?_eq_none (by simpa using hi)] at hc
      cases hc
    rw [this, Set.ncard_empty]
    omega

theorem related [Fintype F] {t D : Nat} (j : Fin t) {run : List F → Option (List F)}
    {sym : List F[X] → Option (List F[X])}
    (h : ∀ x, ∃ y, LineRun run sym x j y ∧ ∀ q ∈ y, q.natDegree = D) (i : Nat) {R : F[X]}
    {g : MvPolynomial (Fin t) F} (hg : g.totalDegree < R.natDegree * D) :
    (inputsRelated run i R g).ncard ≤ R.natDegree * D * Fintype.card F ^ (t - 1) := by
  refine count (fun x => x ∈ inputsRelated run i R g) j fun x => ?_
  obtain ⟨y, hy, hD⟩ := h x
  exact related_line hy hD i hg

/-- States that are their own result. -/
theorem fixed [Fintype F] {t D : Nat} (j : Fin t) {run : List F → Option (List F)}
    {sym : List F[X] → Option (List F[X])}
    (h : ∀ x, ∃ y, LineRun run sym x j y ∧ ∀ q ∈ y, q.natDegree = D) (hD : 2 ≤ D) :
    {x : Fin t → F | run (List.ofFn x) = some (List.ofFn x)}.ncard ≤ D * Fintype.card F ^ (t - 1) := by
  have := related j h j (R := X) (g := MvPolynomial.X j) (by rw [natDegree_X, MvPolynomial.totalDegree_X]; omega)
  rw [natDegree_X, one_mul] at this
  refine le_trans (Set.ncard_le_ncard (fun x hx => ?_) (Set.toFinite _)) this
  exact ⟨_, x j, hx, Lines.getElem?_ofFn x j.isLt, by simp⟩

/-- Pairs of elements: the first two words of an input whose other words are 0. -/
theorem pairs [Fintype F] {t D : Nat} (h2 : 2 ≤ t) {run : List F → Option (List F)}
    {sym : List F[X] → Option (List F[X])}
    (h : ∀ x : Fin t → F, ∃ y, LineRun run sym x ⟨0, by omega⟩ y ∧ ∀ q ∈ y, q.natDegree = D)
    {compress : List F → Option F}
    (hc : ∀ a b, compress [a, b] =
      (run (List.ofFn fun l : Fin t => if l.val = 0 then a else if l.val = 1 then b else 0)).bind fun y => y[0]?)
    {R : F[X]} {g : MvPolynomial (Fin 2) F} (hg : g.totalDegree < R.natDegree * D) :
    (pairsRelated compress R g).ncard ≤ R.natDegree * D * Fintype.card F := by
  refine Directions.plane (W := fun z => z ∈ pairsRelated compress R g) fun b => ?_
  obtain ⟨y, ⟨-, hlen, hrun⟩, hD⟩ := h fun l : Fin t => if l.val = 1 then b else 0
  have hup : ∀ a, (fun l : Fin t => if l.val = 0 then a else if l.val = 1 then b else 0) =
      Function.update (fun l : Fin t => if l.val = 1 then b else 0) ⟨0, by omega⟩ a := by
    intro a
    funext l
    by_cases hl : l.val = 0
    · rw [show l = ⟨0, by omega⟩ from Fin.ext hl]
      simp
    · rw [Function.update_of_ne (fun e => hl (by rw [e])), if_neg hl]
  have hi : 0 < y.length := by omega
  refine le_of_eq_of_le ?_ (roots_le (hD _ (List.getElem_mem hi)) ((onLine_degree ![0, b] 0 g).trans_lt hg))
  congr 1
  ext a
  have e : Function.update (![0, b] : Fin 2 → F) 0 a = ![a, b] := by
    funext l
    fin_cases l <;> simp
  unfold pairsRelated
  simp [hc, hup, hrun, onLine_eval, e, List.getElem?_eq_getElem hi]

end ZkHash.Agreement
