import Verif.Model.SageExtra
import Verif.Theorems.ScriptAny
import Verif.Theorems.ScriptPrint
import Mathlib.LinearAlgebra.Matrix.Reindex
import Mathlib.Tactic.NoncommRing

set_option autoImplicit false

/-!
# The script's search for a small internal matrix, and its listing of the constants: C86
-/

namespace ZkHash

open Spec Matrix

namespace Spec

/-- The matrix with the given diagonal and ones elsewhere. -/
def onesWith (p : Nat) {t : Nat} (d : Fin t → Nat) : Matrix (Fin t) (Fin t) (ZMod p) :=
  Matrix.of fun i j => if i = j then (d i : ZMod p) else 1

/-- What the search asks of a matrix: it is invertible, and its powers up to `2 t` have irreducible minimal polynomials of
degree `t`. -/
def Passes {p t : Nat} (M : Matrix (Fin t) (Fin t) (ZMod p)) : Prop :=
  M.det ≠ 0 ∧ ∀ i, 1 ≤ i → i ≤ 2 * t →
    (minpoly (ZMod p) (M ^ i)).natDegree = t ∧ Irreducible (minpoly (ZMod p) (M ^ i))

/-- The pieces of a text between single quotes; the first argument says whether a piece has begun, the second is what has
been read of it. -/
def quoted : Bool → List UInt8 → List UInt8 → List (List UInt8)
  | _, _, [] => []
  | false, _, c :: rest => if c = 39 then quoted true [] rest else quoted false [] rest
  | true, piece, c :: rest => if c = 39 then piece :: quoted false [] rest else quoted true (piece ++ [c]) rest

end Spec

namespace Sage

theorem mem_product {α : Type _} {vals : List α} {n : Nat} {l : List α} :
    l ∈ product vals n ↔ l.length = n ∧ ∀ x ∈ l, x ∈ vals := by
  induction n generalizing l with
  | zero =>
    simp only [product, List.mem_singleton, List.length_eq_zero_iff]
    constructor
    · rintro rfl; simp
    · exact fun h => h.1
  | succ n ih =>
    simp only [product, List.mem_flatMap, List.mem_map, ih]
    constructor
    · rintro ⟨a, ha, l', ⟨h1, h2⟩, rfl⟩
      refine ⟨by simp [h1], fun x hx => ?_⟩
      rcases List.mem_cons.mp hx with rfl | hx
      · exact ha
      · exact h2 x hx
    · rintro ⟨h1, h2⟩
      cases l with
      | nil => simp at h1
      | cons a l => exact ⟨a, h2 a (by simp), l, ⟨by simpa using h1, fun x hx => h2 x (by simp [hx])⟩, rfl⟩

theorem product_sorted {vals : List Nat} (hv : vals.Pairwise (· < ·)) (n : Nat) : (product vals n).Pairwise (· < ·) := by
  induction n with
  | zero => simp [product]
  | succ n ih =>
    rw [product, List.pairwise_flatMap]
    refine ⟨fun a _ => ?_, hv.imp fun {a b} hab x hx y hy => ?_⟩
    · rw [List.pairwise_map]
      exact ih.imp fun {l l'} h => List.cons_lt_cons_iff.mpr (Or.inr ⟨rfl, h⟩)
    · obtain ⟨l, -, rfl⟩ := List.mem_map.mp hx
      obtain ⟨l', -, rfl⟩ := List.mem_map.mp hy
      exact List.cons_lt_cons_iff.mpr (Or.inl hab)

variable {p : Nat} [Fact p.Prime]

theorem circulantPlusDiagonal_onesWith {t : Nat} (d : Fin t → Nat) :
    circulantPlusDiagonal (fun i => ((d i : Nat) : ZMod p)) = onesWith p d := by
  ext i j
  by_cases h : i = j
  · subst h; simp [circulantPlusDiagonal, onesWith]
  · simp [circulantPlusDiagonal, onesWith, h]

theorem small_some {t : Nat} {M : Matrix (Fin t) (Fin t) (ZMod p)}
    (h : generateMatrixPartialSmallEntries (ZMod p) t = some M) :
    (∃ d : Fin t → Nat, (∀ i, 2 ≤ d i ∧ d i ≤ 5) ∧ M = onesWith p d) ∧ Passes M := by
  unfold generateMatrixPartialSmallEntries at h
  have h1 := List.find?_some h
  have h2 := List.mem_of_find?_eq_some h
  obtain ⟨e, he, rfl⟩ := List.mem_map.mp h2
  obtain ⟨hl, hv⟩ := mem_product.mp he
  simp only [decide_eq_true_eq, not_or, not_not] at h1
  refine ⟨⟨fun i => e.getD i.val 0, fun i => ?_, circulantPlusDiagonal_onesWith _⟩, h1.1, h1.2⟩
  have := hv (e.getD i.val 0) (by
    rw [List.getD_eq_getElem _ _ (by rw [hl]; exact i.isLt)]
    exact List.getElem_mem _)
  rw [List.mem_range'_1] at this
  show 2 ≤ e.getD i.val 0 ∧ e.getD i.val 0 ≤ 5
  omega

theorem small_none {t : Nat} (h : generateMatrixPartialSmallEntries (ZMod p) t = none) (d : Fin t → Nat)
    (hd : ∀ i, 2 ≤ d i ∧ d i ≤ 5) : ¬ Passes (onesWith p d) := by
  unfold generateMatrixPartialSmallEntries at h
  rw [List.find?_eq_none] at h
  have := h (onesWith p d) (List.mem_map.mpr ⟨List.ofFn d, mem_product.mpr ⟨List.length_ofFn, fun x hx => by
    obtain ⟨i, rfl⟩ := List.mem_ofFn.mp hx
    rw [List.mem_range'_1]
    have := hd i
    omega⟩, by
      rw [← circulantPlusDiagonal_onesWith]
      congr 1
      funext i
      simp⟩)
  rintro ⟨h1, h2⟩
  simp only [decide_eq_true_eq, not_not] at this
  exact this.elim h1 fun h => h h2

/-- Two equal entries on the diagonal give an eigenvector. -/
theorem not_passes_of_eq {t : Nat} {d : Fin t → Nat} {a b : Fin t} (hab : a ≠ b) (h : d a = d b) :
    ¬ Passes (onesWith p d) := by
  rintro ⟨-, hp⟩
  have ht : 2 ≤ t := by
    rcases a with ⟨a, ha⟩; rcases b with ⟨b, hb⟩
    simp only [ne_eq, Fin.mk.injEq] at hab
    omega
  have h1 := hp 1 le_rfl (by omega)
  rw [pow_one] at h1
  have hs : Simple (onesWith p d) := MinIrred.Full.no_invariant h1.symm
  set v : Fin t → ZMod p := Pi.single a 1 - Pi.single b 1 with hv
  have hMv : onesWith p d *ᵥ v = ((d a : ZMod p) - 1) • v := by
    rw [hv, Matrix.mulVec_sub, Matrix.mulVec_single_one, Matrix.mulVec_single_one]
    funext i
    simp only [Matrix.col_apply, Pi.sub_apply, onesWith, Matrix.of_apply, Pi.smul_apply, smul_eq_mul]
    by_cases ia : i = a
    · subst ia
      simp [hab]
    · by_cases ib : i = b
      · subst ib
        simp [ia, h]
      · simp [ia, ib]
  have hne : v ≠ 0 := fun h0 => by
    have := congrFun h0 a
    simp [hv, hab] at this
  rcases hs (Submodule.span (ZMod p) {v}) (fun w hw => by
      obtain ⟨c, rfl⟩ := Submodule.mem_span_singleton.mp hw
      rw [Matrix.mulVec_smul, hMv]
      exact Submodule.smul_mem _ _ (Submodule.smul_mem _ _ (Submodule.mem_span_singleton_self v))) with hb | ht'
  · exact hne (Submodule.span_singleton_eq_bot.mp hb)
  · have h2 := finrank_span_singleton (K := ZMod p) hne
    rw [ht', finrank_top, Module.finrank_fin_fun] at h2
    omega

/-- The order of the diagonal does not matter. -/
theorem passes_perm {t : Nat} (d : Fin t → Nat) (σ : Equiv.Perm (Fin t)) (h : Passes (onesWith p (d ∘ σ))) :
    Passes (onesWith p d) := by
  have e : onesWith p d = Matrix.reindexAlgEquiv (ZMod p) (ZMod p) σ (onesWith p (d ∘ σ)) := by
    ext i j
    simp [onesWith]
  refine ⟨?_, fun i h1 h2 => ?_⟩
  · rw [e, Matrix.det_reindexAlgEquiv]
    exact h.1
  · rw [e, ← map_pow, minpoly.algEquiv_eq]
    exact h.2 i h1 h2

/-- The entries before the one that is returned do not pass. -/
theorem small_first {t : Nat} {d d' : Fin t → Nat} (hd : ∀ i, 2 ≤ d i ∧ d i ≤ 5) (hd' : ∀ i, 2 ≤ d' i ∧ d' i ≤ 5)
    (h : generateMatrixPartialSmallEntries (ZMod p) t = some (onesWith p d)) (hlt : List.ofFn d' < List.ofFn d) (hp : 5 < p) :
    ¬ Passes (onesWith p d') := by
  have hinj : ∀ {d d' : Fin t → Nat}, (∀ i, 2 ≤ d i ∧ d i ≤ 5) → (∀ i, 2 ≤ d' i ∧ d' i ≤ 5) →
      onesWith p d = onesWith p d' → d = d' := by
    intro d d' hd hd' e
    funext i
    have h1 := congrFun (congrFun e i) i
    simp only [onesWith, Matrix.of_apply, if_true] at h1
    have h2 := (ZMod.natCast_eq_natCast_iff _ _ _).mp h1
    have := hd i; have := hd' i
    exact Nat.ModEq.eq_of_lt_of_lt h2 (by omega) (by omega)
  have hmem : ∀ d : Fin t → Nat, (∀ i, 2 ≤ d i ∧ d i ≤ 5) → List.ofFn d ∈ product (List.range' 2 4) t := fun d hd =>
    mem_product.mpr ⟨List.length_ofFn, fun x hx => by
      obtain ⟨i, rfl⟩ := List.mem_ofFn.mp hx
      rw [List.mem_range'_1]
      have := hd i
      omega⟩
  have hof : ∀ l ∈ product (List.range' 2 4) t, ∃ e : Fin t → Nat, (∀ i, 2 ≤ e i ∧ e i ≤ 5) ∧ l = List.ofFn e := by
    intro l hl
    obtain ⟨h1, h2⟩ := mem_product.mp hl
    subst h1
    refine ⟨l.get, fun i => ?_, (List.ofFn_get l).symm⟩
    have := h2 _ (List.get_mem l i)
    rw [List.mem_range'_1] at this
    omega
  unfold generateMatrixPartialSmallEntries at h
  rw [List.find?_map, Option.map_eq_some_iff] at h
  obtain ⟨l, hl, e⟩ := h
  obtain ⟨d0, hd0, rfl⟩ := hof l (List.mem_of_find?_eq_some hl)
  have hval : ∀ d : Fin t → Nat, circulantPlusDiagonal (fun i => (((List.ofFn d).getD i.val 0 : Nat) : ZMod p)) = onesWith p d := by
    intro d
    rw [← circulantPlusDiagonal_onesWith]
    congr 1
    funext i
    simp
  rw [hval] at e
  obtain rfl := hinj hd0 hd e
  obtain ⟨-, as, bs, hab, has⟩ := List.find?_eq_some_iff_append.mp hl
  have hs := product_sorted (vals := List.range' 2 4) (by decide) t
  rw [hab] at hs
  have hd'm := hmem d' hd'
  rw [hab] at hd'm
  rcases List.mem_append.mp hd'm with h1 | h1
  · have := has _ h1
    rintro ⟨g1, g2⟩
    rw [Bool.not_eq_true', Function.comp_apply, decide_eq_false_iff_not, hval, not_not] at this
    exact this.elim g1 fun h => h g2
  · rw [List.pairwise_append] at hs
    rcases List.mem_cons.mp h1 with h1 | h1
    · rw [h1] at hlt
      exact absurd hlt (lt_irrefl _)
    · exact absurd (lt_trans hlt ((List.pairwise_cons.mp hs.2.1).1 _ h1)) (lt_irrefl _)

end Sage

section

variable {p : Nat} [Fact p.Prime]

/-- **C86**, when it finds a matrix: exactly if there is a diagonal of numbers from 2 to 5 for which the matrix passes. -/
theorem C86_found_iff (t : Nat) :
    (∃ M, Sage.generateMatrixPartialSmallEntries (ZMod p) t = some M) ↔
      ∃ d : Fin t → Nat, (∀ i, 2 ≤ d i ∧ d i ≤ 5) ∧ Passes (onesWith p d) := by
  constructor
  · rintro ⟨M, hM⟩
    obtain ⟨⟨d, hd, rfl⟩, h⟩ := Sage.small_some hM
    exact ⟨d, hd, h⟩
  · rintro ⟨d, hd, h⟩
    cases e : Sage.generateMatrixPartialSmallEntries (ZMod p) t with
    | none => exact absurd h (Sage.small_none e d hd)
    | some M => exact ⟨M, rfl⟩

/-- **C86**, what it finds: a matrix with such a diagonal that passes, and no diagonal before it in the order of the
dictionary passes. -/
theorem C86_found {t : Nat} (hp : 5 < p) {M : Matrix (Fin t) (Fin t) (ZMod p)}
    (h : Sage.generateMatrixPartialSmallEntries (ZMod p) t = some M) :
    ∃ d : Fin t → Nat, (∀ i, 2 ≤ d i ∧ d i ≤ 5) ∧ M = onesWith p d ∧ Passes M ∧
      ∀ d' : Fin t → Nat, (∀ i, 2 ≤ d' i ∧ d' i ≤ 5) → List.ofFn d' < List.ofFn d → ¬ Passes (onesWith p d') := by
  obtain ⟨⟨d, hd, rfl⟩, h1⟩ := Sage.small_some h
  exact ⟨d, hd, rfl, h1, fun d' hd' hlt => Sage.small_first hd hd' h hlt hp⟩

/-- **C86**, what a matrix that passes is good for: neither it nor its powers up to `2 t` map any subspace into itself, apart
from the trivial ones, and it passes the first two of the three tests that `generate_matrix_partial` runs. -/
theorem C86_no_invariant_subspaces {t : Nat} (ht : 2 ≤ t) {M : Matrix (Fin t) (Fin t) (ZMod p)}
    (h : Sage.generateMatrixPartialSmallEntries (ZMod p) t = some M) :
    (∀ i, 1 ≤ i → i ≤ 2 * t → ∀ W : Submodule (ZMod p) (Fin t → ZMod p), (∀ w ∈ W, (M ^ i) *ᵥ w ∈ W) → W = ⊥ ∨ W = ⊤) ∧
      Sage.Algorithm1 M ∧ Sage.Algorithm2 M := by
  have h1 := (Sage.small_some h).2.2
  have hs : ∀ i, 1 ≤ i → i ≤ 2 * t → Sage.Simple (M ^ i) := fun i h2 h3 => MinIrred.Full.no_invariant (h1 i h2 h3).symm
  refine ⟨hs, Sage.algorithm1_of_simple fun i h2 h3 => hs i h2 (by omega), ?_⟩
  have := (hs 1 le_rfl (by omega)).cyclic
  rw [pow_one] at this
  exact Sage.algorithm2_of_cyclic this

/-- **C86**, widths above 4: the search never finds a matrix, over any prime field. (Two of the numbers on the diagonal are
equal, so the matrix has an eigenvector.) -/
theorem C86_wide {t : Nat} (ht : 5 ≤ t) : Sage.generateMatrixPartialSmallEntries (ZMod p) t = none := by
  by_contra hne
  obtain ⟨M, hM⟩ := Option.ne_none_iff_exists'.mp hne
  obtain ⟨⟨d, hd, rfl⟩, h⟩ := Sage.small_some hM
  obtain ⟨a, b, hab, e⟩ := Fintype.exists_ne_map_eq_of_card_lt (fun i => (⟨d i - 2, by have := hd i; omega⟩ : Fin 4))
    (by rw [Fintype.card_fin, Fintype.card_fin]; omega)
  refine Sage.not_passes_of_eq hab ?_ h
  have := hd a; have := hd b
  simp only [Fin.mk.injEq] at e
  omega

/-- **C86**, width 4: the search returns the matrix with the diagonal 2, 3, 4, 5 if that passes, and nothing otherwise. -/
theorem C86_width4 (hp : 5 < p) :
    (Passes (onesWith p ![2, 3, 4, 5]) →
      Sage.generateMatrixPartialSmallEntries (ZMod p) 4 = some (onesWith p ![2, 3, 4, 5])) ∧
    (¬ Passes (onesWith p ![2, 3, 4, 5]) → Sage.generateMatrixPartialSmallEntries (ZMod p) 4 = none) := by
  have key : ∀ M, Sage.generateMatrixPartialSmallEntries (ZMod p) 4 = some M →
      M = onesWith p ![2, 3, 4, 5] ∧ Passes (onesWith p ![2, 3, 4, 5]) := by
    intro M hM
    obtain ⟨d, hd, rfl, h, hfirst⟩ := C86_found hp hM
    have hinj : Function.Injective d := fun a b e => by
      by_contra hab
      exact Sage.not_passes_of_eq hab e h
    set σ0 : Fin 4 → Fin 4 := fun i => ⟨d i - 2, by have := hd i; omega⟩ with hσ0
    have hσ : Function.Injective σ0 := fun a b e => by
      simp only [hσ0, Fin.mk.injEq] at e
      have := hd a; have := hd b
      exact hinj (by omega)
    have e : d = ![2, 3, 4, 5] ∘ Equiv.ofBijective σ0 (Finite.injective_iff_bijective.mp hσ) := by
      funext i
      rw [Function.comp_apply, Equiv.ofBijective_apply]
      have hb : ∀ k : Fin 4, (![2, 3, 4, 5] : Fin 4 → Nat) k = k.val + 2 := by decide
      rw [hb]
      have := hd i
      simp only [hσ0]
      omega
    have hpass : Passes (onesWith p ![2, 3, 4, 5]) := Sage.passes_perm _ _ (by rw [← e]; exact h)
    refine ⟨?_, hpass⟩
    congr 1
    by_contra hne
    have hlt : List.ofFn (![2, 3, 4, 5] : Fin 4 → Nat) < List.ofFn d := by
      have hd0 := hd 0; have hd1 := hd 1; have hd2 := hd 2; have hd3 := hd 3
      have i01 : d 0 ≠ d 1 := fun h => absurd (hinj h) (by decide)
      have i02 : d 0 ≠ d 2 := fun h => absurd (hinj h) (by decide)
      have i03 : d 0 ≠ d 3 := fun h => absurd (hinj h) (by decide)
      have i12 : d 1 ≠ d 2 := fun h => absurd (hinj h) (by decide)
      have i13 : d 1 ≠ d 3 := fun h => absurd (hinj h) (by decide)
      have i23 : d 2 ≠ d 3 := fun h => absurd (hinj h) (by decide)
      have hne' : ¬ (d 0 = 2 ∧ d 1 = 3 ∧ d 2 = 4 ∧ d 3 = 5) := by
        rintro ⟨h0, h1, h2, h3⟩
        apply hne
        funext i
        fin_cases i
        · exact h0
        · exact h1
        · exact h2
        · exact h3
      show [2, 3, 4, 5] < [d 0, d 1, d 2, d 3]
      simp only [List.cons_lt_cons_iff]
      omega
    exact hfirst _ (by decide) hlt hpass
  constructor
  · intro h
    cases e : Sage.generateMatrixPartialSmallEntries (ZMod p) 4 with
    | none => exact absurd h (Sage.small_none e _ (by decide))
    | some M => rw [(key M e).1]
  · intro h
    cases e : Sage.generateMatrixPartialSmallEntries (ZMod p) 4 with
    | none => rfl
    | some M => exact absurd (key M e).2 h

/-- **C86**, use in the crate: for a prime above 7, a matrix that the search finds for width 4 makes the permutation a bijection,
with any constants, even number of full rounds and exponent 3, 5 or 7 coprime to `p - 1`. -/
theorem C86_poseidon2 {d rounds_f rounds_p : Nat} (hp : 7 < p) (hd : d = 3 ∨ d = 5 ∨ d = 7) (hcop : Nat.Coprime d (p - 1))
    (heven : rounds_f % 2 = 0) (hfit : rounds_f + rounds_p < 2 ^ 64) (rc : List (List (ZMod p)))
    (hlen : rounds_f + rounds_p ≤ rc.length) (hrow : ∀ row ∈ rc, 4 ≤ row.length)
    {M : Matrix (Fin 4) (Fin 4) (ZMod p)} (h : Sage.generateMatrixPartialSmallEntries (ZMod p) 4 = some M) (dbg : Bool) :
    ∃ P, Poseidon2Params.new dbg 4 d rounds_f rounds_p (List.ofFn fun i => M i i - 1) (rowsOf M) rc = some P ∧
      IsPermutation 4 (Poseidon2.permutation dbg P) := by
  obtain ⟨⟨e, -, rfl⟩, hdet, -⟩ := Sage.small_some h
  have hs : WellShaped 4 d rounds_f rounds_p (List.ofFn fun i => onesWith p e i i - 1) rc :=
    ⟨by unfold Supported; decide, hd, fun _ => by simp, hlen, hrow, hfit⟩
  obtain ⟨P, hP, -⟩ := C03_permutation_total (dbg := dbg) (mat_internal := rowsOf (onesWith p e)) hs heven
  refine ⟨P, hP, (C02_permutation_bijective_iff hP hs).mpr ⟨C64_external_matrix hp (by unfold Supported; decide), Or.inr ?_,
    Or.inr (by rwa [ZMod.card])⟩⟩
  have := Sage.circulantPlusDiagonal_eq (le_refl 4) (fun i => ((e i : Nat) : ZMod p))
  rw [Sage.circulantPlusDiagonal_onesWith] at this
  rwa [← this]

end

/-! ## The listing of the constants -/

theorem quoted_skip {l : List UInt8} (h : 39 ∉ l) (piece rest : List UInt8) :
    quoted false piece (l ++ rest) = quoted false (if l = [] then piece else []) rest := by
  induction l generalizing piece with
  | nil => rfl
  | cons c l ih =>
    rw [List.mem_cons, not_or] at h
    rw [List.cons_append, quoted, if_neg (Ne.symm h.1), ih h.2]
    split <;> simp

theorem quoted_piece {l : List UInt8} (h : 39 ∉ l) (piece rest : List UInt8) :
    quoted true piece (l ++ 39 :: rest) = (piece ++ l) :: quoted false [] rest := by
  induction l generalizing piece with
  | nil => simp [quoted]
  | cons c l ih =>
    rw [List.mem_cons, not_or] at h
    rw [List.cons_append, quoted, if_neg (Ne.symm h.1), ih h.2]
    simp

theorem quoted_false (piece rest : List UInt8) : quoted false piece rest = quoted false [] rest := by
  cases rest with
  | nil => rfl
  | cons c rest => rw [quoted, quoted]

theorem quoted_skip' {l : List UInt8} (h : 39 ∉ l) (rest : List UInt8) : quoted false [] (l ++ rest) = quoted false [] rest := by
  rw [quoted_skip h, quoted_false]

theorem quoted_pyList {strings : List (List UInt8)} (h : ∀ s ∈ strings, 39 ∉ s) :
    quoted false [] (Sage.println (Sage.pyList strings)) = strings := by
  unfold Sage.println Sage.pyList
  rw [List.append_assoc, List.append_assoc, quoted_skip' (by decide)]
  induction strings with
  | nil => rfl
  | cons s strings ih =>
    have hs := h s (by simp)
    have ih := ih fun s hs => h s (by simp [hs])
    cases strings with
    | nil =>
      simp only [List.map_cons, List.map_nil, List.intercalate, List.intersperse_singleton, List.flatten_cons, List.flatten_nil,
        List.append_nil]
      rw [List.append_assoc, List.append_assoc]
      show quoted false [] (39 :: (s ++ 39 :: [93, 10])) = _
      rw [quoted, if_pos rfl, quoted_piece hs]
      rfl
    | cons s' strings =>
      simp only [List.map_cons, List.intercalate, List.intersperse_cons_cons, List.flatten_cons, List.append_assoc] at ih ⊢
      show quoted false [] (39 :: (s ++ 39 :: ([44, 32] ++ _))) = _
      rw [quoted, if_pos rfl, quoted_piece hs, quoted_skip' (by decide)]
      exact congrArg _ ih

theorem formatHex_eq (v w : Nat) : Sage.formatHex v w = 48 :: 120 :: (List.replicate (w - 2 - (hexDigits v).length) 0 ++
    hexDigits v).map Sage.hexChar := by
  unfold Sage.formatHex Sage.zfill
  simp only [pyHex_eq, List.drop_succ_cons, List.drop_zero, List.map_append, List.map_replicate, List.length_map,
    List.cons_append, List.nil_append]
  rfl

theorem formatHex_digits (v w : Nat) : ∀ x ∈ List.replicate (w - 2 - (hexDigits v).length) 0 ++ hexDigits v, x < 16 := by
  intro d hd
  rcases List.mem_append.mp hd with h | h
  · rw [List.eq_of_mem_replicate h]; omega
  · exact hexDigits_lt h

theorem formatHex_no_quote (v w : Nat) : 39 ∉ Sage.formatHex v w := by
  rw [formatHex_eq]
  intro h
  rcases List.mem_cons.mp h with h | h
  · exact absurd h (by decide)
  rcases List.mem_cons.mp h with h | h
  · exact absurd h (by decide)
  obtain ⟨d, hd, e⟩ := List.mem_map.mp h
  have hd := formatHex_digits v w d hd
  interval_cases d <;> exact absurd e (by decide)

theorem dec_no_quote (n : Nat) : 39 ∉ Sage.dec n := by
  unfold Sage.dec
  split
  · decide
  · intro h
    obtain ⟨d, hd, e⟩ := List.mem_map.mp h
    have hd := Nat.digits_lt_base (by omega : 1 < 10) (List.mem_reverse.mp hd)
    interval_cases d <;> exact absurd e (by decide)

/-- The number of hexadecimal digits of a number below `2 ^ n`, `n > 0`. -/
theorem hexDigits_length_le {v n : Nat} (hn : 0 < n) (hv : v < 2 ^ n) : (hexDigits v).length ≤ (n + 3) / 4 := by
  unfold hexDigits
  split
  · show 1 ≤ _
    omega
  · rw [List.length_reverse, Nat.digits_length_le_iff (by omega)]
    refine lt_of_lt_of_le hv ?_
    rw [show (16 : Nat) = 2 ^ 4 by rfl, ← pow_mul]
    exact Nat.pow_le_pow_right (by omega) (by omega)

/-- **C86**, the listing of the constants: between the quotes stand as many strings as there are constants, all of the same
length. If the number of hexadecimal digits of the modulus is even, `from_hex` reads the constants from them; if it is odd,
`from_hex` panics on every one. -/
theorem C86_listing {p : Nat} (hp : 0 < p) (rc : List Nat) (hrc : ∀ v ∈ rc, v < p) (field : Nat) :
    let strings := quoted false [] (Sage.printRoundConstants rc (p.log2 + 1) field)
    let digits := (Nat.digits 16 p).length
    strings.length = rc.length ∧ (∀ s ∈ strings, s.length = digits + 2) ∧
      (Even digits → strings.mapM (Fields.fromHex p) = some rc) ∧
      (¬ Even digits → ∀ s ∈ strings, Fields.fromHex p s = none) := by
  intro strings digits
  have hdig : digits = (p.log2 + 1 + 3) / 4 := by
    have h1 : p < 2 ^ (p.log2 + 1) := Nat.lt_log2_self
    have h2 : 2 ^ p.log2 ≤ p := Nat.log2_self_le (by omega)
    apply le_antisymm
    · rw [Nat.digits_length_le_iff (by omega)]
      refine lt_of_lt_of_le h1 ?_
      rw [show (16 : Nat) = 2 ^ 4 by rfl, ← pow_mul]
      exact Nat.pow_le_pow_right (by omega) (by omega)
    · by_contra hlt
      have : p < 16 ^ ((p.log2 + 1 + 3) / 4 - 1) := (Nat.digits_length_le_iff (by omega) p).mp (by
        show digits ≤ _
        omega)
      rw [show (16 : Nat) = 2 ^ 4 by rfl, ← pow_mul] at this
      have h3 := (Nat.pow_lt_pow_iff_right (by omega : 1 < 2)).mp (lt_of_le_of_lt h2 this)
      omega
  have hstr : strings = rc.map fun v => Sage.formatHex v (digits + 2) := by
    show quoted false [] (Sage.printRoundConstants rc (p.log2 + 1) field) = _
    unfold Sage.printRoundConstants
    rw [hdig]
    simp only
    rw [List.append_assoc, quoted_skip', quoted_skip', quoted_pyList]
    · intro s hs
      obtain ⟨v, -, rfl⟩ := List.mem_map.mp hs
      exact formatHex_no_quote _ _
    · split
      · decide
      · split <;> decide
    · unfold Sage.println
      rw [List.mem_append, List.mem_append, not_or, not_or]
      exact ⟨⟨by decide, dec_no_quote _⟩, by decide⟩
  have hlen : ∀ v ∈ rc, (Sage.formatHex v (digits + 2)).length = digits + 2 := by
    intro v hv
    rw [formatHex_eq]
    have h1 := hexDigits_length_le (v := v) (n := p.log2 + 1) (by omega) ((hrc v hv).trans Nat.lt_log2_self)
    rw [← hdig] at h1
    simp only [List.length_cons, List.length_map, List.length_append, List.length_replicate]
    omega
  rw [hstr]
  refine ⟨List.length_map _, fun s hs => ?_, fun he => ?_, fun ho s hs => ?_⟩
  · obtain ⟨v, hv, rfl⟩ := List.mem_map.mp hs
    exact hlen v hv
  · have : ∀ v ∈ rc, Fields.fromHex p (Sage.formatHex v (digits + 2)) = some v := by
      intro v hv
      have h1 := hlen v hv
      rw [formatHex_eq] at h1 ⊢
      rw [C32_value p 48 120 _ (List.replicate (digits + 2 - 2 - (hexDigits v).length) 0 ++ hexDigits v) (by
        rw [List.forall₂_map_left_iff, List.forall₂_same]
        exact fun d hd => hexChar_digit (formatHex_digits _ _ d hd)) (by
          simp only [List.length_cons] at h1
          rw [show ∀ l : List UInt8, l.length + 1 + 1 = digits + 2 → l.length = digits from fun l h => by omega]
          · exact he
          · exact h1), bigEndian_zeros, bigEndian_hexDigits, Nat.mod_eq_of_lt (hrc v hv)]
    clear hstr hlen hrc
    induction rc with
    | nil => rfl
    | cons v rc ih =>
      rw [List.map_cons, List.mapM_cons, this v (by simp), ih fun w hw => this w (by simp [hw])]
      rfl
  · obtain ⟨v, hv, rfl⟩ := List.mem_map.mp hs
    refine (C32_panics_iff p _).mpr (Or.inr (Or.inr (Or.inl ?_)))
    rw [hlen v hv]
    exact ho

/-! ## The hypotheses can be met -/

instance : Fact (Nat.Prime 11) := ⟨by decide⟩

theorem pow11 {A A2 A4 A8 A10 A11 : Matrix (Fin 4) (Fin 4) (ZMod 11)} (h2 : A * A = A2) (h4 : A2 * A2 = A4) (h8 : A4 * A4 = A8)
    (h10 : A8 * A2 = A10) (h11 : A10 * A = A11) : A ^ 11 = A11 := by
  rw [← h11, ← h10, ← h8, ← h4, ← h2]
  noncomm_ring

/-- Over the field of 11 elements the matrix with the diagonal 2, 3, 4, 5 passes. -/
theorem passes11 : Passes (onesWith 11 ![2, 3, 4, 5]) := by
  have hB : onesWith 11 ![2, 3, 4, 5] = (!![2, 1, 1, 1; 1, 3, 1, 1; 1, 1, 4, 1; 1, 1, 1, 5] : Matrix (Fin 4) (Fin 4) (ZMod 11)) := by decide
  rw [hB]
  have h1 : (!![2, 1, 1, 1; 1, 3, 1, 1; 1, 1, 4, 1; 1, 1, 1, 5] : Matrix (Fin 4) (Fin 4) (ZMod 11)) ^ 11 = !![5, 1, 4, 7; 1, 0, 7, 10; 4, 7, 1, 2; 7, 10, 2, 8] :=
    pow11 (A2 := !![7, 7, 8, 9; 7, 1, 9, 10; 8, 9, 8, 0; 9, 10, 0, 6]) (A4 := !![1, 9, 7, 0; 9, 0, 5, 1; 7, 5, 0, 8; 0, 1, 8, 8])
      (A8 := !![10, 0, 8, 10; 0, 8, 5, 4; 8, 5, 6, 3; 10, 4, 3, 8]) (A10 := !![4, 0, 1, 7; 0, 5, 2, 5; 1, 2, 3, 8; 7, 5, 8, 2]) (by decide) (by decide) (by decide) (by decide) (by decide)
  have h2 : (!![5, 1, 4, 7; 1, 0, 7, 10; 4, 7, 1, 2; 7, 10, 2, 8] : Matrix (Fin 4) (Fin 4) (ZMod 11)) ^ 11 = !![10, 3, 0, 0; 3, 1, 8, 4; 0, 8, 5, 0; 0, 4, 0, 9] :=
    pow11 (A2 := !![3, 4, 1, 10; 4, 7, 9, 2; 1, 9, 4, 6; 10, 2, 6, 8]) (A4 := !![5, 3, 4, 3; 3, 7, 5, 3; 4, 5, 2, 1; 3, 3, 1, 6])
      (A8 := !![4, 10, 2, 2; 10, 4, 5, 9; 2, 5, 2, 2; 2, 9, 2, 0]) (A10 := !![8, 9, 4, 0; 9, 10, 10, 1; 4, 10, 1, 3; 0, 1, 3, 6]) (by decide) (by decide) (by decide) (by decide) (by decide)
  have h3 : (!![10, 3, 0, 0; 3, 1, 8, 4; 0, 8, 5, 0; 0, 4, 0, 9] : Matrix (Fin 4) (Fin 4) (ZMod 11)) ^ 11 = !![8, 6, 6, 3; 6, 10, 6, 7; 6, 6, 4, 8; 3, 7, 8, 3] :=
    pow11 (A2 := !![10, 0, 2, 1; 0, 2, 4, 7; 2, 4, 1, 10; 1, 7, 10, 9]) (A4 := !![6, 4, 10, 6; 4, 3, 5, 7; 10, 5, 0, 9; 6, 7, 9, 0])
      (A8 := !![1, 7, 2, 0; 7, 0, 8, 2; 2, 8, 8, 7; 0, 2, 7, 1]) (A10 := !![3, 0, 10, 4; 0, 2, 9, 6; 10, 9, 4, 3; 4, 6, 3, 5]) (by decide) (by decide) (by decide) (by decide) (by decide)
  have h4 : (!![8, 6, 6, 3; 6, 10, 6, 7; 6, 6, 4, 8; 3, 7, 8, 3] : Matrix (Fin 4) (Fin 4) (ZMod 11)) ^ 11 = !![2, 1, 1, 1; 1, 3, 1, 1; 1, 1, 4, 1; 1, 1, 1, 5] :=
    pow11 (A2 := !![2, 0, 0, 2; 0, 1, 0, 3; 0, 0, 9, 6; 2, 3, 6, 10]) (A4 := !![8, 6, 1, 2; 6, 10, 7, 0; 1, 7, 7, 4; 2, 0, 4, 6])
      (A8 := !![6, 5, 10, 10; 5, 9, 4, 7; 10, 4, 5, 10; 10, 7, 10, 1]) (A10 := !![10, 2, 7, 0; 2, 8, 1, 10; 7, 1, 6, 8; 0, 10, 8, 1]) (by decide) (by decide) (by decide) (by decide) (by decide)
  have hC : (!![2, 1, 1, 1; 1, 3, 1, 1; 1, 1, 4, 1; 1, 1, 1, 5] : Matrix (Fin 4) (Fin 4) (ZMod 11)) ^ 11 ^ 2 = !![10, 3, 0, 0; 3, 1, 8, 4; 0, 8, 5, 0; 0, 4, 0, 9] := by
    rw [show 11 ^ 2 = 11 * 11 by rfl, pow_mul, h1, h2]
  have hB4 : (!![2, 1, 1, 1; 1, 3, 1, 1; 1, 1, 4, 1; 1, 1, 1, 5] : Matrix (Fin 4) (Fin 4) (ZMod 11)) ^ 11 ^ 4 = !![2, 1, 1, 1; 1, 3, 1, 1; 1, 1, 4, 1; 1, 1, 1, 5] := by
    rw [show 11 ^ 4 = 11 * 11 * 11 * 11 by rfl, pow_mul, pow_mul, pow_mul, h1, h2, h3, h4]
  have hq : ∀ q : Nat, q.Prime → q ∣ 4 → q = 2 := fun q hq hd =>
    (Nat.prime_dvd_prime_iff_eq hq Nat.prime_two).mp (hq.dvd_of_dvd_pow (show q ∣ 2 ^ 2 from hd))
  have hfull : MinIrred.Full (!![2, 1, 1, 1; 1, 3, 1, 1; 1, 1, 4, 1; 1, 1, 1, 5] : Matrix (Fin 4) (Fin 4) (ZMod 11)) := by
    refine MinIrred.rabin (by decide) _ hB4 fun q h1 h2 => ?_
    obtain rfl := hq q h1 h2
    rw [hC]
    exact IsUnit.of_mul_eq_one (b := !![0, 1, 8, 4; 1, 9, 4, 0; 8, 4, 10, 7; 4, 0, 7, 3]) (by decide)
  have b2 : (!![2, 1, 1, 1; 1, 3, 1, 1; 1, 1, 4, 1; 1, 1, 1, 5] : Matrix (Fin 4) (Fin 4) (ZMod 11)) ^ 2 = !![7, 7, 8, 9; 7, 1, 9, 10; 8, 9, 8, 0; 9, 10, 0, 6] := by
    rw [pow_succ, pow_one]; decide
  have b3 : (!![2, 1, 1, 1; 1, 3, 1, 1; 1, 1, 4, 1; 1, 1, 1, 5] : Matrix (Fin 4) (Fin 4) (ZMod 11)) ^ 3 = !![5, 1, 0, 1; 1, 7, 10, 1; 0, 10, 5, 3; 1, 1, 3, 5] := by
    rw [pow_succ, b2]; decide
  have b4 : (!![2, 1, 1, 1; 1, 3, 1, 1; 1, 1, 4, 1; 1, 1, 1, 5] : Matrix (Fin 4) (Fin 4) (ZMod 11)) ^ 4 = !![1, 9, 7, 0; 9, 0, 5, 1; 7, 5, 0, 8; 0, 1, 8, 8] := by
    rw [pow_succ, b3]; decide
  have b5 : (!![2, 1, 1, 1; 1, 3, 1, 1; 1, 1, 4, 1; 1, 1, 1, 5] : Matrix (Fin 4) (Fin 4) (ZMod 11)) ^ 5 = !![7, 2, 5, 6; 2, 4, 8, 8; 5, 8, 9, 8; 6, 8, 8, 5] := by
    rw [pow_succ, b4]; decide
  have b6 : (!![2, 1, 1, 1; 1, 3, 1, 1; 1, 1, 4, 1; 1, 1, 1, 5] : Matrix (Fin 4) (Fin 4) (ZMod 11)) ^ 6 = !![5, 2, 2, 0; 2, 8, 2, 10; 2, 2, 2, 7; 0, 10, 7, 3] := by
    rw [pow_succ, b5]; decide
  have b7 : (!![2, 1, 1, 1; 1, 3, 1, 1; 1, 1, 4, 1; 1, 1, 1, 5] : Matrix (Fin 4) (Fin 4) (ZMod 11)) ^ 7 = !![3, 2, 4, 9; 2, 5, 6, 7; 4, 6, 8, 8; 9, 7, 8, 10] := by
    rw [pow_succ, b6]; decide
  have b8 : (!![2, 1, 1, 1; 1, 3, 1, 1; 1, 1, 4, 1; 1, 1, 1, 5] : Matrix (Fin 4) (Fin 4) (ZMod 11)) ^ 8 = !![10, 0, 8, 10; 0, 8, 5, 4; 8, 5, 6, 3; 10, 4, 3, 8] := by
    rw [pow_succ, b7]; decide
  have c2 : (!![10, 3, 0, 0; 3, 1, 8, 4; 0, 8, 5, 0; 0, 4, 0, 9] : Matrix (Fin 4) (Fin 4) (ZMod 11)) ^ 2 = !![10, 0, 2, 1; 0, 2, 4, 7; 2, 4, 1, 10; 1, 7, 10, 9] := by
    rw [pow_succ, pow_one]; decide
  have c3 : (!![10, 3, 0, 0; 3, 1, 8, 4; 0, 8, 5, 0; 0, 4, 0, 9] : Matrix (Fin 4) (Fin 4) (ZMod 11)) ^ 3 = !![1, 6, 10, 9; 6, 7, 3, 5; 10, 3, 4, 7; 9, 5, 7, 10] := by
    rw [pow_succ, c2]; decide
  have c4 : (!![10, 3, 0, 0; 3, 1, 8, 4; 0, 8, 5, 0; 0, 4, 0, 9] : Matrix (Fin 4) (Fin 4) (ZMod 11)) ^ 4 = !![6, 4, 10, 6; 4, 3, 5, 7; 10, 5, 0, 9; 6, 7, 9, 0] := by
    rw [pow_succ, c3]; decide
  have c5 : (!![10, 3, 0, 0; 3, 1, 8, 4; 0, 8, 5, 0; 0, 4, 0, 9] : Matrix (Fin 4) (Fin 4) (ZMod 11)) ^ 5 = !![6, 5, 5, 4; 5, 6, 5, 9; 5, 5, 7, 2; 4, 9, 2, 6] := by
    rw [pow_succ, c4]; decide
  have c6 : (!![10, 3, 0, 0; 3, 1, 8, 4; 0, 8, 5, 0; 0, 4, 0, 9] : Matrix (Fin 4) (Fin 4) (ZMod 11)) ^ 6 = !![9, 2, 10, 1; 2, 9, 7, 6; 10, 7, 9, 5; 1, 6, 5, 2] := by
    rw [pow_succ, c5]; decide
  have c7 : (!![10, 3, 0, 0; 3, 1, 8, 4; 0, 8, 5, 0; 0, 4, 0, 9] : Matrix (Fin 4) (Fin 4) (ZMod 11)) ^ 7 = !![8, 3, 0, 6; 3, 7, 8, 2; 0, 8, 2, 7; 6, 2, 7, 9] := by
    rw [pow_succ, c6]; decide
  have c8 : (!![10, 3, 0, 0; 3, 1, 8, 4; 0, 8, 5, 0; 0, 4, 0, 9] : Matrix (Fin 4) (Fin 4) (ZMod 11)) ^ 8 = !![1, 7, 2, 0; 7, 0, 8, 2; 2, 8, 8, 7; 0, 2, 7, 1] := by
    rw [pow_succ, c7]; decide
  refine ⟨by decide, fun i h1 h2 => (MinIrred.Full.pow (by decide) hfull hB4 i fun q hq1 hq2 => ?_).symm⟩
  obtain rfl := hq q hq1 hq2
  rw [show 4 / 2 = 2 by rfl, hC]
  interval_cases i
  · rw [pow_one, pow_one]; decide
  · rw [b2, c2]; decide
  · rw [b3, c3]; decide
  · rw [b4, c4]; decide
  · rw [b5, c5]; decide
  · rw [b6, c6]; decide
  · rw [b7, c7]; decide
  · rw [b8, c8]; decide

example : Sage.generateMatrixPartialSmallEntries (ZMod 11) 4 = some (onesWith 11 ![2, 3, 4, 5]) :=
  (C86_width4 (by decide)).1 passes11

/-- The bijection it gives, with 8 full and 10 partial rounds. -/
example (rc : List (List (ZMod 11))) (hlen : rc.length = 18) (hrow : ∀ row ∈ rc, row.length = 4) (dbg : Bool) :
    ∃ P, Poseidon2Params.new dbg 4 3 8 10 [1, 2, 3, 4] (rowsOf (onesWith 11 ![2, 3, 4, 5])) rc = some P ∧
      IsPermutation 4 (Poseidon2.permutation dbg P) := by
  have h := C86_poseidon2 (p := 11) (d := 3) (rounds_f := 8) (rounds_p := 10) (by decide) (Or.inl rfl) (by decide) rfl
    (by decide) rc hlen.ge (fun row h => (hrow row h).ge) ((C86_width4 (by decide)).1 passes11) dbg
  have e : (List.ofFn fun i => onesWith 11 ![2, 3, 4, 5] i i - 1) = ([1, 2, 3, 4] : List (ZMod 11)) := by decide
  rwa [e] at h

/-- The listing of the constants of a field of 31 bits can be read back; that of one of 9 bits (three digits) cannot. -/
example : (quoted false [] (Sage.printRoundConstants [5, 2013265920] (2013265921).log2.succ 1)).mapM
    (Fields.fromHex 2013265921) = some [5, 2013265920] :=
  (C86_listing (p := 2013265921) (by decide) [5, 2013265920] (by decide) 1).2.2.1 (by decide +kernel)

example : ∀ s ∈ quoted false [] (Sage.printRoundConstants [5, 256] (257).log2.succ 1), Fields.fromHex 257 s = none :=
  (C86_listing (p := 257) (by decide) [5, 256] (by decide) 1).2.2.2 (by decide +kernel)

end ZkHash
