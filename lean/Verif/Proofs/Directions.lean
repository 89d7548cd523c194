import Verif.Spec.Directions
import Verif.Proofs.Lines
import Verif.Proofs.SymbolicRun
import Verif.Proofs.Uniform
import Mathlib.Algebra.Module.Prod
import Mathlib.Algebra.Module.Pi

set_option autoImplicit false

/-!
# Degrees along all lines, and how often a difference occurs
-/

namespace ZkHash.Directions

open Spec Matrix Polynomial Degree

variable {F : Type} [Field F] {t : Nat}

section lead

/-- The line through `x` in direction `v`. -/
noncomputable def dir (x v : Fin t → F) : Fin t → F[X] := fun l => C (x l) + X * C (v l)

theorem lead_dir (x v : Fin t → F) : Lead 1 v (dir x v) := by
  intro i
  unfold dir
  refine ⟨?_, ?_⟩
  · refine (natDegree_add_le _ _).trans (max_le (by simp) ?_)
    exact (natDegree_mul_C_le _ _).trans natDegree_X_le
  · rw [coeff_add, coeff_C_of_ne_zero one_ne_zero, zero_add, coeff_mul_C, coeff_X_one, one_mul]

theorem eval_dir (x v : Fin t → F) (a : F) : (fun l => (dir x v l).eval a) = fun l => x l + a * v l := by
  funext l
  unfold dir
  rw [eval_add, eval_C, eval_mul, eval_X, eval_C]

theorem lead_poseidon2 {d : Nat} (hd : 1 < d) (ME MI : Matrix (Fin t) (Fin t) F) (rf rp : Nat) (c : Nat → Nat → F)
    {v : Fin t → F} {f : Fin t → F[X]} (h : Lead 1 v f) :
    Lead (d ^ (2 * rf + rp)) ((leadFull ME d)^[rf] ((leadPart MI d)^[rp] ((leadFull ME d)^[rf] (ME *ᵥ v))))
      (Spec.poseidon2 (ME.map C) (MI.map C) d rf rp (fun r i => C (c r i)) f) := by
  have hpos : ∀ n, 0 < d ^ n := fun n => pow_pos (by omega) n
  have h0 := h.mulVec ME
  have h1 := Lead.rounds hd (fun r D v f hD h => h.full hD hd ME fun i : Fin t => c r i) 0 Nat.one_pos h0 rf
  have h2 := Lead.rounds hd (fun r D v f hD h => h.part hD hd MI (c r 0)) rf
    (Nat.mul_pos (hpos rf) Nat.one_pos) h1 rp
  have h3 := Lead.rounds hd (fun r D v f hD h => h.full hD hd ME fun i : Fin t => c r i) (rf + rp)
    (Nat.mul_pos (hpos rp) (Nat.mul_pos (hpos rf) Nat.one_pos)) h2 rf
  have e : d ^ rf * (d ^ rp * (d ^ rf * 1)) = d ^ (2 * rf + rp) := by rw [two_mul, pow_add, pow_add]; ring
  rw [e] at h3
  exact h3

theorem lead_poseidon {d : Nat} (hd : 1 < d) (M : Matrix (Fin t) (Fin t) F) (rf rp : Nat) (c : Nat → Nat → F)
    {v : Fin t → F} {f : Fin t → F[X]} (h : Lead 1 v f) :
    Lead (d ^ (2 * rf + rp)) ((leadFull M d)^[rf] ((leadPart M d)^[rp] ((leadFull M d)^[rf] v)))
      (Spec.poseidon (M.map C) d rf rp (fun r i => C (c r i)) f) := by
  have hpos : ∀ n, 0 < d ^ n := fun n => pow_pos (by omega) n
  have hfull : ∀ (r D : Nat) (v : Fin t → F) (f : Fin t → F[X]), 0 < D → Lead D v f →
      Lead (d * D) (leadFull M d v) (poseidonFull (M.map C) d (fun i : Fin t => C (c r i)) f) :=
    fun r D v f hD h => h.full hD hd M fun i : Fin t => c r i
  have h1 := Lead.rounds hd hfull 0 Nat.one_pos h rf
  have h2 := Lead.rounds hd (fun r D v f hD h => h.poseidonPart hD hd M fun i : Fin t => c r i) rf
    (Nat.mul_pos (hpos rf) Nat.one_pos) h1 rp
  have h3 := Lead.rounds hd hfull (rf + rp)
    (Nat.mul_pos (hpos rp) (Nat.mul_pos (hpos rf) Nat.one_pos)) h2 rf
  have e : d ^ rf * (d ^ rp * (d ^ rf * 1)) = d ^ (2 * rf + rp) := by rw [two_mul, pow_add, pow_add]; ring
  rw [e] at h3
  exact h3

theorem natDegree_of_lead {D : Nat} {v : Fin t → F} {f : Fin t → F[X]} (h : Lead D v f) {i : Fin t} (hv : v i ≠ 0) :
    (f i).natDegree = D :=
  le_antisymm (h i).1 (le_natDegree_of_ne_zero (by rw [(h i).2]; exact hv))

/-- On every line in direction `v` every word of the function is a polynomial of degree `D`. -/
def Good (G : (Fin t → F) → Fin t → F) (D : Nat) (v : Fin t → F) : Prop :=
  ∀ (x : Fin t → F) (i : Fin t), ∃ q : F[X], q.natDegree = D ∧ ∀ a, q.eval a = G (fun l => x l + a * v l) i

theorem good_poseidon2 (ht : 0 < t) {d : Nat} (hd : 1 < d) (ME MI : Matrix (Fin t) (Fin t) F) {rf rp : Nat} (hrp : 0 < rp)
    (c : Nat → Nat → F) (h2 : MI ⟨0, ht⟩ ⟨0, ht⟩ ≠ 0)
    (h3 : ∀ i, (leadFull ME d)^[rf] (fun i => MI i ⟨0, ht⟩) i ≠ 0) (v : Fin t → F)
    (h1 : (leadFull ME d)^[rf] (ME *ᵥ v) ⟨0, ht⟩ ≠ 0) :
    Good (Spec.poseidon2 ME MI d rf rp c) (d ^ (2 * rf + rp)) v := by
  intro x i
  have hl := lead_poseidon2 hd ME MI rf rp c (lead_dir x v)
  refine ⟨_, natDegree_of_lead hl (lead_ne_zero ht ME MI hrp _ h1 h2 h3 i), fun a => ?_⟩
  have := Symbolic.poseidon2_back (C : F →+* F[X]) (evalRingHom a) (fun c => eval_C) ME MI rf rp c (d := d) (dir x v)
  have := congrFun this i
  simp only [coe_evalRingHom, eval_dir] at this
  exact this

theorem good_poseidon (ht : 0 < t) {d : Nat} (hd : 1 < d) (M : Matrix (Fin t) (Fin t) F) {rf rp : Nat} (hrp : 0 < rp)
    (c : Nat → Nat → F) (h2 : M ⟨0, ht⟩ ⟨0, ht⟩ ≠ 0)
    (h3 : ∀ i, (leadFull M d)^[rf] (fun i => M i ⟨0, ht⟩) i ≠ 0) (v : Fin t → F)
    (h1 : (leadFull M d)^[rf] v ⟨0, ht⟩ ≠ 0) :
    Good (Spec.poseidon M d rf rp c) (d ^ (2 * rf + rp)) v := by
  intro x i
  have hl := lead_poseidon hd M rf rp c (lead_dir x v)
  refine ⟨_, natDegree_of_lead hl (lead_ne_zero ht M M hrp _ h1 h2 h3 i), fun a => ?_⟩
  have := Symbolic.poseidon_back (C : F →+* F[X]) (evalRingHom a) (fun c => eval_C) M rf rp c (d := d) (dir x v)
  have := congrFun this i
  simp only [coe_evalRingHom, eval_dir] at this
  exact this

theorem leadFull_injective {M : Matrix (Fin t) (Fin t) F} {d : Nat} (hM : M.det ≠ 0)
    (hp : Function.Injective fun x : F => x ^ d) : Function.Injective (leadFull M d) := by
  intro v w h
  have := (Matrix.mulVec_injective_iff_isUnit.mpr ((Matrix.isUnit_iff_isUnit_det M).mpr (isUnit_iff_ne_zero.mpr hM))) h
  funext i
  exact hp (congrFun this i)

/-- Along a line the leading coefficients after some full rounds are themselves polynomials. -/
theorem leadFull_line {d : Nat} (hd : 1 < d) (M : Matrix (Fin t) (Fin t) F) {v : Fin t → F} {f : Fin t → F[X]}
    (h : Lead 1 v f) (g : F → Fin t → F) (hg : ∀ a, (fun i => (f i).eval a) = g a) :
    ∀ n, ∃ f' : Fin t → F[X], Lead (d ^ n) ((leadFull M d)^[n] v) f' ∧
      ∀ a, (fun i => (f' i).eval a) = (leadFull M d)^[n] (g a) := by
  intro n
  induction n with
  | zero => exact ⟨f, by simpa using h, hg⟩
  | succ n ih =>
    obtain ⟨f', hf, he⟩ := ih
    refine ⟨fullRound (M.map C) d (fun _ => C 0) f', ?_, fun a => ?_⟩
    · have := hf.full (pow_pos (by omega) n) hd M fun _ => 0
      rw [pow_succ', Function.iterate_succ_apply']
      exact this
    · rw [Function.iterate_succ_apply', ← he]
      funext i
      simp [fullRound, leadFull, Matrix.mulVec, dotProduct, eval_finsetSum]

end lead

section count
variable [Fintype F]

/-- If a function is a polynomial of degree `D` on every line in direction `v`, a difference occurs rarely. -/
theorem whole {V : Type} [AddCommGroup V] [Module F V] [Fintype V] (f : V → F) (v : V) {D : Nat} (h0 : 2 ≤ D)
    (hDF : (D : F) ≠ 0) (h : ∀ x, ∃ q : F[X], q.natDegree = D ∧ ∀ a, q.eval a = f (x + a • v)) (β : F) :
    Fintype.card F * {x | f (x + v) - f x = β}.ncard ≤ (D - 1) * Fintype.card V := by
  classical
  have hline : ∀ x, (Finset.univ.filter fun a : F => f (x + a • v + v) - f (x + a • v) = β).card ≤ D - 1 := by
    intro x
    obtain ⟨q, hq, he⟩ := h x
    obtain ⟨hne, hdeg⟩ := Lines.shift_ne hq h0 hDF (one_ne_zero (α := F)) β
    have hsub : (Finset.univ.filter fun a : F => f (x + a • v + v) - f (x + a • v) = β) ⊆
        (taylor 1 q - q - C β).roots.toFinset := by
      intro a ha
      rw [Finset.mem_filter] at ha
      rw [Multiset.mem_toFinset, mem_roots', IsRoot]
      refine ⟨hne, ?_⟩
      rw [eval_sub, eval_sub, taylor_eval, eval_C, he, he, add_smul, one_smul, ← add_assoc, ha.2, sub_self]
    exact (Finset.card_le_card hsub).trans ((Multiset.toFinset_card_le _).trans ((card_roots' _).trans hdeg))
  have hshift : ∀ a : F, (Finset.univ.filter fun x : V => f (x + a • v + v) - f (x + a • v) = β).card =
      (Finset.univ.filter fun x : V => f (x + v) - f x = β).card := by
    intro a
    refine Finset.card_bij (fun x _ => x + a • v) (fun x hx => ?_) (fun x _ y _ e => add_right_cancel e) fun y hy => ?_
    · simpa using hx
    · refine ⟨y - a • v, ?_, sub_add_cancel _ _⟩
      simpa using hy
  rw [Set.ncard_eq_toFinset_card', Set.toFinset_ofPred]
  calc Fintype.card F * (Finset.univ.filter fun x : V => f (x + v) - f x = β).card
      = ∑ a : F, (Finset.univ.filter fun x : V => f (x + a • v + v) - f (x + a • v) = β).card := by
        rw [Finset.sum_congr rfl fun a _ => hshift a, Finset.sum_const, Finset.card_univ, smul_eq_mul]
    _ = ∑ x : V, (Finset.univ.filter fun a : F => f (x + a • v + v) - f (x + a • v) = β).card := by
        simp only [Finset.card_filter]
        exact Finset.sum_comm
    _ ≤ ∑ _x : V, (D - 1) := Finset.sum_le_sum fun x _ => hline x
    _ = (D - 1) * Fintype.card V := by rw [Finset.sum_const, Finset.card_univ, smul_eq_mul, mul_comm]

theorem differences (ht : 0 < t) {run : List F → Option (List F)} {G : (Fin t → F) → Fin t → F}
    (hrun : ∀ z, run (List.ofFn z) = some (List.ofFn (G z))) {D : Nat} (h0 : 2 ≤ D) (hDF : (D : F) ≠ 0) {v : Fin t → F}
    (h : Good G D v) (i : Nat) (β : F) :
    (inputsWithDifference run v i β).ncard ≤ (D - 1) * Fintype.card F ^ (t - 1) := by
  by_cases hi : i < t
  · have hset : inputsWithDifference run v i β = {x | G (x + v) ⟨i, hi⟩ - G x ⟨i, hi⟩ = β} := by
      ext x
      unfold inputsWithDifference
      rw [Set.mem_ofPred_eq, Set.mem_ofPred_eq, hrun, hrun]
      simp only [Option.some.injEq]
      constructor
      · rintro ⟨out, out', c, c', rfl, rfl, hc, hc', hb⟩
        rw [Lines.getElem?_ofFn _ hi, Option.some.injEq] at hc hc'
        rw [← hb, ← hc, ← hc']
        rfl
      · intro hb
        exact ⟨_, _, _, _, rfl, rfl, Lines.getElem?_ofFn _ hi, Lines.getElem?_ofFn _ hi, hb⟩
    have := whole (fun x => G x ⟨i, hi⟩) v h0 hDF (fun x => by
      obtain ⟨q, hq, he⟩ := h x ⟨i, hi⟩
      exact ⟨q, hq, fun a => he a⟩) β
    rw [← hset, Fintype.card_fun, Fintype.card_fin] at this
    obtain ⟨s, rfl⟩ : ∃ s, t = s + 1 := ⟨t - 1, by omega⟩
    rw [pow_succ', Nat.mul_left_comm] at this
    exact Nat.le_of_mul_le_mul_left this Fintype.card_pos
  · have : inputsWithDifference run v i β = ∅ := by
      ext x
      simp only [Set.mem_empty_iff_false, iff_false]
      rintro ⟨out, out', c, c', h1, h2, hc, hc', hb⟩
      rw [hrun, Option.some.injEq] at h2
      subst h2
      rw [List.getElem?_eq_none (by simpa using hi)] at hc'
      cases hc'
    simp [this]

omit [Fintype F] in
theorem points {run : List F → Option (List F)} {G : (Fin t → F) → Fin t → F}
    (hrun : ∀ z, run (List.ofFn z) = some (List.ofFn (G z))) {D : Nat} (h0 : 0 < D) {v : Fin t → F}
    (h : Good G D v) (x : Fin t → F) (i : Nat) (c : F) : (pointsWith run x v i c).ncard ≤ D := by
  classical
  by_cases hi : i < t
  · obtain ⟨q, hq, he⟩ := h x ⟨i, hi⟩
    have hsub : pointsWith run x v i c ⊆ ((q - C c).roots.toFinset : Set F) := by
      rintro a ⟨out, ho, hc⟩
      rw [hrun, Option.some.injEq] at ho
      subst ho
      rw [Lines.getElem?_ofFn _ hi, Option.some.injEq] at hc
      rw [Finset.mem_coe, Multiset.mem_toFinset, mem_roots', IsRoot]
      refine ⟨fun e => ?_, by rw [eval_sub, eval_C, he, hc, sub_self]⟩
      rw [sub_eq_zero] at e
      rw [e, natDegree_C] at hq
      omega
    refine (Set.ncard_le_ncard hsub (Finset.finite_toSet _)).trans ?_
    rw [Set.ncard_coe_finset]
    refine (Multiset.toFinset_card_le _).trans ((card_roots' _).trans ?_)
    rw [natDegree_sub_C, hq]
  · have : pointsWith run x v i c = ∅ := by
      ext a
      simp only [Set.mem_empty_iff_false, iff_false]
      rintro ⟨out, ho, hc⟩
      rw [hrun, Option.some.injEq] at ho
      subst ho
      rw [List.getElem?_eq_none (by simpa using hi)] at hc
      cases hc
    simp [this]

/-- A word of an injective function vanishes for as many inputs as it takes any other value. -/
theorem zeros {e : (Fin t → F) → Fin t → F} (he : Function.Injective e) (i : Fin t) :
    {v | e v i = 0}.ncard = Fintype.card F ^ (t - 1) := by
  rw [← Uniform.count_word i (0 : F), ← Nat.card_coe_set_eq]
  have hb : Function.Bijective e := Finite.injective_iff_bijective.mp he
  exact Nat.card_congr ((Equiv.ofBijective e hb).subtypeEquiv fun v => Iff.rfl)

omit [Field F] in
theorem plane {W : F × F → Prop} {k : Nat} (h : ∀ b, {a | W (a, b)}.ncard ≤ k) :
    {z | W z}.ncard ≤ k * Fintype.card F := by
  classical
  have h' : ∀ b, (Finset.univ.filter fun a => W (a, b)).card ≤ k := by
    intro b
    have := h b
    rwa [Set.ncard_eq_toFinset_card', Set.toFinset_ofPred] at this
  rw [Set.ncard_eq_toFinset_card', Set.toFinset_ofPred]
  calc (Finset.univ.filter W).card = ∑ b, (Finset.univ.filter fun a => W (a, b)).card := by
        simp only [Finset.card_filter]
        rw [Fintype.sum_prod_type_right]
    _ ≤ ∑ _b : F, k := Finset.sum_le_sum fun b _ => h' b
    _ = k * Fintype.card F := by rw [Finset.sum_const, Finset.card_univ, smul_eq_mul, mul_comm]

/-- Of the directions in the plane of the first two words of three, few are bad. -/
theorem plane_zeros {d : Nat} (hd : 1 < d) (M A : Matrix (Fin 3) (Fin 3) F) (n : Nat)
    (h : (leadFull M d)^[n] (A *ᵥ Pi.single 0 1) 0 ≠ 0) :
    {z : F × F | (leadFull M d)^[n] (A *ᵥ ![z.1, z.2, 0]) 0 = 0}.ncard ≤ d ^ n * Fintype.card F := by
  classical
  refine plane (W := fun z : F × F => (leadFull M d)^[n] (A *ᵥ ![z.1, z.2, 0]) 0 = 0) fun b => ?_
  obtain ⟨f, hf, he⟩ := leadFull_line hd M ((lead_dir ![0, b, 0] (Pi.single 0 1)).mulVec A)
    (fun a => A *ᵥ ![a, b, 0]) (fun a => by
      have h1 : (fun l => (dir ![0, b, 0] (Pi.single (0 : Fin 3) (1 : F)) l).eval a) = ![a, b, 0] := by
        rw [eval_dir]
        funext l
        fin_cases l <;> simp
      rw [← h1]
      funext i
      simp [Matrix.mulVec, dotProduct, eval_finsetSum]) n
  have hne : f 0 ≠ 0 := by
    intro e
    have := (hf 0).2
    rw [e, coeff_zero] at this
    exact h this.symm
  have hsub : {a | (leadFull M d)^[n] (A *ᵥ ![a, b, 0]) 0 = 0} ⊆ ((f 0).roots.toFinset : Set F) := by
    intro a ha
    rw [Finset.mem_coe, Multiset.mem_toFinset, mem_roots', IsRoot]
    exact ⟨hne, by rw [congrFun (he a) 0]; exact ha⟩
  refine (Set.ncard_le_ncard hsub (Finset.finite_toSet _)).trans ?_
  rw [Set.ncard_coe_finset]
  exact (Multiset.toFinset_card_le _).trans ((card_roots' _).trans (hf 0).1)

/-- Differences of the first word, of a state of three words whose last word is 0. -/
theorem compress_differences {run : List F → Option (List F)} {G : (Fin 3 → F) → Fin 3 → F}
    (hrun : ∀ z, run (List.ofFn z) = some (List.ofFn (G z))) {compress : List F → Option F}
    (hc : ∀ a b, compress [a, b] = (run [a, b, 0]).bind fun y => y[0]?)
    {D : Nat} (h0 : 2 ≤ D) (hDF : (D : F) ≠ 0) {δ : F × F} (h : Good G D ![δ.1, δ.2, 0]) (β : F) :
    (pairsWithDifference compress δ β).ncard ≤ (D - 1) * Fintype.card F := by
  have hval : ∀ a b, compress [a, b] = some (G ![a, b, 0] 0) := by
    intro a b
    rw [hc, show [a, b, 0] = List.ofFn ![a, b, (0 : F)] by simp [List.ofFn_succ], hrun]
    simp
  have hset : pairsWithDifference compress δ β =
      {z : F × F | G ![(z + δ).1, (z + δ).2, 0] 0 - G ![z.1, z.2, 0] 0 = β} := by
    ext z
    unfold pairsWithDifference
    simp [hval]
  have := whole (fun z : F × F => G ![z.1, z.2, 0] 0) δ h0 hDF (fun z => by
    obtain ⟨q, hq, he⟩ := h ![z.1, z.2, 0] 0
    refine ⟨q, hq, fun a => (he a).trans ?_⟩
    congr 1
    funext l
    fin_cases l <;> simp) β
  rw [← hset, Fintype.card_prod, Nat.mul_left_comm] at this
  exact Nat.le_of_mul_le_mul_left this Fintype.card_pos

/-- Pairs of inputs with equal digests, when with the second element fixed a digest has at most `D` first elements. -/
theorem pairs {compress : List F → Option F} {D : Nat} (hsome : ∀ a b, ∃ h, compress [a, b] = some h)
    (h : ∀ b c, {a | compress [a, b] = some c}.ncard ≤ D) :
    {z : (F × F) × F × F | compress [z.1.1, z.1.2] = compress [z.2.1, z.2.2]}.ncard ≤ D * Fintype.card F ^ 3 := by
  classical
  have key : ∀ y : F × F, (Finset.univ.filter fun z : F × F => compress [y.1, y.2] = compress [z.1, z.2]).card ≤
      D * Fintype.card F := by
    intro y
    obtain ⟨c, hc⟩ := hsome y.1 y.2
    have := plane (W := fun z : F × F => compress [y.1, y.2] = compress [z.1, z.2]) (k := D) fun b => by
      have := h b c
      rw [hc]
      simpa only [eq_comm] using this
    rwa [Set.ncard_eq_toFinset_card', Set.toFinset_ofPred] at this
  rw [Set.ncard_eq_toFinset_card', Set.toFinset_ofPred]
  calc _ = ∑ y : F × F, (Finset.univ.filter fun z : F × F => compress [y.1, y.2] = compress [z.1, z.2]).card := by
        simp only [Finset.card_filter]
        rw [Fintype.sum_prod_type]
    _ ≤ ∑ _y : F × F, D * Fintype.card F := Finset.sum_le_sum fun y _ => key y
    _ = D * Fintype.card F ^ 3 := by
        rw [Finset.sum_const, Finset.card_univ, Fintype.card_prod, smul_eq_mul]
        ring

end count

/-- What the check of `Degree` says about the matrices alone, and about the directions of single words. -/
theorem check_parts {p t d rf : Nat} [Fact p.Prime] (ht : 0 < t) {E I V : Nat → Nat → Nat}
    (h : Degree.check p t d rf E I V = true) :
    (∀ j : Fin t, (leadFull (Matrix.of fun i j : Fin t => ((E i j : Nat) : ZMod p)) d)^[rf]
      (fun i : Fin t => ((V i j : Nat) : ZMod p)) ⟨0, ht⟩ ≠ 0) ∧
    (Matrix.of fun i j : Fin t => ((I i j : Nat) : ZMod p)) ⟨0, ht⟩ ⟨0, ht⟩ ≠ 0 ∧
    ∀ i, (leadFull (Matrix.of fun i j : Fin t => ((E i j : Nat) : ZMod p)) d)^[rf]
      (fun i => (Matrix.of fun i j : Fin t => ((I i j : Nat) : ZMod p)) i ⟨0, ht⟩) i ≠ 0 := by
  simp only [Degree.check, Bool.and_eq_true, List.all_eq_true, List.mem_range] at h
  obtain ⟨⟨h1, h2⟩, h3⟩ := h
  refine ⟨fun j => ?_, Degree.cast_ne_zero h2, fun i => ?_⟩
  · have := castV_iterate p t d E ((List.range t).map fun i => V i j) rf
    rw [castV_map] at this
    rw [← this]
    exact Degree.cast_ne_zero (h1 j j.isLt)
  · have := castV_iterate p t d E ((List.range t).map fun i => I i 0) rf
    rw [castV_map] at this
    have e : (fun i : Fin t => (Matrix.of fun i j : Fin t => ((I i j : Nat) : ZMod p)) i ⟨0, ht⟩) =
      fun i : Fin t => ((I i 0 : Nat) : ZMod p) := rfl
    rw [e, ← this]
    exact Degree.cast_ne_zero (h3 i i.isLt)

end ZkHash.Directions
