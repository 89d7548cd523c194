import Verif.Proofs.Degree
import Verif.Proofs.SymbolicRun
import Verif.Theorems.Poseidon2Instances
import Verif.Theorems.PoseidonInstances
import Verif.Theorems.ShippedOther
import Verif.Theorems.Activity

set_option autoImplicit false

/-!
# Degrees of the permutations as polynomials: C75
-/

namespace ZkHash

open Spec Matrix

variable {dbg : Bool}

/-- **C75**, upper bound for Poseidon2: run on formal polynomials, with a variable for each word of the input, the
permutation returns polynomials of total degree at most `d` to the number of rounds; the result for an input is the
values of these polynomials at the input. -/
theorem C75_poseidon2 {F : Type} [CommRing F] {t d rounds_f rounds_p : Nat} {diag : List F}
    {mat_internal rc : List (List F)} {P : Poseidon2Params F}
    (hP : Poseidon2Params.new dbg t d rounds_f rounds_p diag mat_internal rc = some P)
    (hs : WellShaped t d rounds_f rounds_p diag rc) :
    ∃ y, FullRun (t := t) (Poseidon2.permutation dbg P) (Poseidon2.permutation dbg (P.map MvPolynomial.C)) y ∧
      ∀ q ∈ y, q.totalDegree ≤ d ^ (rounds_f + rounds_p) := by
  have heven : rounds_f % 2 = 0 := by
    by_contra h
    rw [(C05_new_panics_iff dbg t d rounds_f rounds_p diag mat_internal rc).mpr (Or.inr (Or.inl (by omega)))] at hP
    cases hP
  have h := Degree.poseidon2 (show 0 < d by have := hs.degree; omega) (externalMatrix t) (internalMatrix t (vec diag))
    (rounds_f / 2) rounds_p (tab rc)
  rw [show 2 * (rounds_f / 2) = rounds_f by omega] at h
  refine ⟨_, Symbolic.fullRun _ _ (Symbolic.poseidon2_run MvPolynomial.C hP hs) (C01_permutation_eq_spec hP hs)
    fun ψ hψ z => Symbolic.poseidon2_back _ ψ hψ _ _ _ _ _ z, fun q hq => ?_⟩
  obtain ⟨i, rfl⟩ := (List.mem_ofFn' _ _).mp hq
  exact h i

/-- **C75**, upper bound for Poseidon. The polynomials are those of the plain form of the permutation. -/
theorem C75_poseidon {F : Type} [Field F] [DecidableEq F] {t d rounds_f rounds_p : Nat} {M : Matrix (Fin t) (Fin t) F}
    {rc : List (List F)} {P : PoseidonParams F}
    (hP : PoseidonParams.new dbg t d rounds_f rounds_p (rowsOf M) rc = some P)
    (hs : PoseidonShaped t rounds_f rounds_p rc) (dbg' : Bool) :
    ∃ y, FullRun (t := t) (Poseidon.permutation dbg' P) (Poseidon.permutationNotOpt dbg' (P.map MvPolynomial.C)) y ∧
      ∀ q ∈ y, q.totalDegree ≤ d ^ (rounds_f + rounds_p) := by
  obtain ⟨hd, heven, -, ht, -⟩ := Poseidon.new_args hP
  have h := Degree.poseidon (show 0 < d by omega) M (rounds_f / 2) rounds_p (tab rc)
  rw [show 2 * (rounds_f / 2) = rounds_f by omega] at h
  refine ⟨_, Symbolic.fullRun _ _ (Symbolic.poseidon_run MvPolynomial.C hP hs dbg') (C12_permutation_eq_spec hP hs dbg')
    fun ψ hψ z => Symbolic.poseidon_back _ ψ hψ _ _ _ _ z, fun q hq => ?_⟩
  obtain ⟨i, rfl⟩ := (List.mem_ofFn' _ _).mp hq
  exact h i

/-- **C75**, upper bound for GMiMC. -/
theorem C75_gmimc {F : Type} [CommRing F] (dbg : Bool) {t d rounds : Nat} (ht : 0 < t) (hr : 0 < rounds) {stream rest : List F}
    {P : GmimcParams F} (hlen : rounds ≤ stream.length) (hP : GmimcParams.new t d rounds stream = some (P, rest)) :
    ∃ y, FullRun (t := t) (Gmimc.permutation dbg P) (Gmimc.permutation dbg (P.map MvPolynomial.C)) y ∧
      ∀ q ∈ y, q.totalDegree ≤ d ^ rounds := by
  obtain ⟨h1, h2⟩ := C21_new t d rounds stream hlen
  obtain ⟨rfl, hl, -⟩ := h2 P rest hP
  have hd : d = 3 ∨ d = 5 ∨ d = 7 := by
    by_contra h
    rw [h1.mpr (by omega)] at hP
    cases hP
  obtain ⟨n, rfl⟩ : ∃ n, rounds = n + 1 := ⟨rounds - 1, by omega⟩
  obtain ⟨s, rfl⟩ : ∃ s, t = s + 1 := ⟨t - 1, by omega⟩
  have h := Degree.gmimc (s := s) (show 0 < d by omega) (vec (stream.take (n + 1))) n
  refine ⟨_, Symbolic.fullRun _ _
    (Symbolic.gmimc_run MvPolynomial.C (s := s) (n := n) dbg ⟨s + 1, d, n + 1, stream.take (n + 1)⟩ rfl rfl hd hl.ge)
    (C19_permutation_eq_spec (s := s) (n := n) dbg ⟨s + 1, d, n + 1, stream.take (n + 1)⟩ rfl rfl hd hl.ge)
    fun ψ hψ z => Symbolic.gmimc_back _ ψ hψ _ _ z, fun q hq => ?_⟩
  obtain ⟨i, rfl⟩ := (List.mem_ofFn' _ _).mp hq
  exact h i

/-- **C75**, upper bound for Neptune: 4 for every external round, `d` for every internal round. -/
theorem C75_neptune {F : Type} [Field F] [DecidableEq F] {t d rounds_f rounds_p : Nat} (ht : 0 < t) {s r : List F}
    {P : NeptuneParams F} (h : NeptuneParams.new dbg t d rounds_f rounds_p s = some (P, r))
    (hfit : rounds_f + rounds_p < 2 ^ 64) :
    ∃ y, FullRun (t := t) (Neptune.permutation dbg P) (Neptune.permutation dbg (P.map MvPolynomial.C)) y ∧
      ∀ q ∈ y, q.totalDegree ≤ 4 ^ rounds_f * d ^ rounds_p := by
  obtain ⟨k, rfl⟩ : ∃ k, t = 2 * k := ⟨t / 2, by have := NeptuneParams.new_even h; omega⟩
  obtain ⟨M, hme, hM⟩ := C25_permutation_eq_spec (by omega) h hfit
  have hd := (C51_constructor_iff.mp h).1
  have hev := (C51_constructor_iff.mp h).2.1
  have h' := Degree.neptune (k := k) (show 0 < d by omega) M (neptuneInternal (2 * k) (vec P.mu)) P.abc.2.2
    (rounds_f / 2) rounds_p (tab P.round_constants)
  rw [show 2 * (rounds_f / 2) = rounds_f by omega] at h'
  refine ⟨_, Symbolic.fullRun _ _
    (Symbolic.neptune_run MvPolynomial.C (MvPolynomial.C_injective _ _) (by omega) h hfit hme) hM
    fun ψ hψ z => Symbolic.neptune_back _ ψ hψ _ _ _ _ _ _ z, fun q hq => ?_⟩
  obtain ⟨i, rfl⟩ := (List.mem_ofFn' _ _).mp hq
  exact h' i

namespace Degree

/-- The external matrix of Poseidon2 on integers. -/
def extN (t i j : Nat) : Nat :=
  if t < 4 then (if i = j then 2 else 1)
  else
    let e := (([[5, 7, 1, 3], [4, 6, 1, 1], [1, 3, 5, 7], [1, 1, 4, 6]] : List (List Nat)).getD (i % 4) []).getD (j % 4) 0
    if t = 4 then e else if i / 4 = j / 4 then 2 * e else e

theorem extN_cast (p t : Nat) [Fact p.Prime] :
    (Matrix.of fun i j : Fin t => ((extN t i j : Nat) : ZMod p)) = externalMatrix t := by
  have h4 : ∀ a b : Nat, (ha : a < 4) → (hb : b < 4) →
      ((((([[5, 7, 1, 3], [4, 6, 1, 1], [1, 3, 5, 7], [1, 1, 4, 6]] : List (List Nat)).getD a []).getD b 0 : Nat)) : ZMod p) =
        M4 ⟨a, ha⟩ ⟨b, hb⟩ := by
    intro a b ha hb
    interval_cases a <;> interval_cases b <;> simp [M4]
  ext i j
  simp only [Matrix.of_apply, externalMatrix, extN, Fin.ext_iff]
  rw [← h4 (i.val % 4) (j.val % 4) (Nat.mod_lt _ (by decide)) (Nat.mod_lt _ (by decide))]
  split_ifs <;> simp

/-- From leading coefficients to the statement. -/
theorem Lead.exact {F : Type} [Field F] {t D : Nat} {v : Fin t → F} {f : Fin t → Polynomial F} (h : Lead D v f)
    (hv : ∀ i, v i ≠ 0) : ∀ q ∈ List.ofFn f, q.natDegree = D := by
  intro q hq
  obtain ⟨i, rfl⟩ := (List.mem_ofFn' _ _).mp hq
  exact le_antisymm (h i).1 (Polynomial.le_natDegree_of_ne_zero (by rw [(h i).2]; exact hv i))

/-- Agreement with polynomials of smaller degree. -/
theorem agreement {F : Type} [Field F] {D : Nat} {q : Polynomial F} (hdeg : q.natDegree = D) (g : Polynomial F)
    (hg : g.natDegree < D) : {a | q.eval a = g.eval a}.ncard ≤ D := by
  classical
  have hne : q - g ≠ 0 := by
    intro h0
    rw [sub_eq_zero.mp h0] at hdeg
    omega
  have hsub : {a | q.eval a = g.eval a} ⊆ ((q - g).roots.toFinset : Set F) := by
    intro a ha
    simp only [Finset.mem_coe, Multiset.mem_toFinset, Polynomial.mem_roots hne, Polynomial.IsRoot.def,
      Polynomial.eval_sub]
    exact sub_eq_zero.mpr ha
  calc _ ≤ ((q - g).roots.toFinset : Set F).ncard := Set.ncard_le_ncard hsub (Finset.finite_toSet _)
    _ = (q - g).roots.toFinset.card := Set.ncard_coe_finset _
    _ ≤ (q - g).roots.card := Multiset.toFinset_card_le _
    _ ≤ (q - g).natDegree := Polynomial.card_roots' _
    _ ≤ D := (Polynomial.natDegree_sub_le _ _).trans (max_le hdeg.le hg.le)

theorem poseidon2_checked : (Instances.poseidon2.all fun S =>
    Degree.check S.modulus S.t S.d (S.rounds_f / 2) (extN S.t) (fun i j => (S.matInternal.getD i []).getD j 0) (extN S.t) &&
      S.rounds_p != 0) = true := by
  decide +kernel

theorem poseidon_checked : (Instances.poseidon.all fun S =>
    Degree.check S.modulus S.t S.d (S.rounds_f / 2) (fun i j => (S.mds.getD i []).getD j 0)
      (fun i j => (S.mds.getD i []).getD j 0) (fun i j => if i = j then 1 else 0) &&
      S.rounds_p != 0) = true := by
  decide +kernel

end Degree

/-- **C75**, exact degree for every shipped Poseidon2 instance. Let all words of the input be fixed except word `j`, which
is a variable. Run on these polynomials, the permutation returns polynomials of degree exactly `d` to the number of
rounds, `D`, whose values are the results for the values of the variable; and any polynomial of smaller degree gives the
right result for at most `D` values of the variable. -/
theorem C75_poseidon2_exact (S : Poseidon2Source) (hS : S ∈ Instances.poseidon2) [Fact S.modulus.Prime] :
    ∃ P, S.params dbg = some P ∧ ∀ (x : Fin S.t → ZMod S.modulus) (j : Fin S.t), ∃ y,
      LineRun (Poseidon2.permutation dbg P) (Poseidon2.permutation dbg (P.map Polynomial.C)) x j y ∧
      ∀ q ∈ y, q.natDegree = S.d ^ (S.rounds_f + S.rounds_p) ∧
        ∀ g : Polynomial (ZMod S.modulus), g.natDegree < S.d ^ (S.rounds_f + S.rounds_p) →
          {a | q.eval a = g.eval a}.ncard ≤ S.d ^ (S.rounds_f + S.rounds_p) := by
  have hg := poseidon2_good S hS
  have hs := hg.shaped
  obtain ⟨P, hP⟩ := hg.params
  refine ⟨P, hP, fun x j => ?_⟩
  have hw := hg.width
  have hev := hg.even
  have ht : 0 < S.t := by unfold Supported at hw; omega
  have hc := List.all_eq_true.mp Degree.poseidon2_checked S hS
  rw [Bool.and_eq_true, bne_iff_ne] at hc
  obtain ⟨hc, hrp⟩ := hc
  have hI : (Matrix.of fun i j : Fin S.t => ((((S.matInternal.getD i []).getD j 0 : Nat)) : ZMod S.modulus)) =
      internalMatrix S.t (vec S.diagF) := hg.matOf.symm
  have hne := Degree.check_sound (rp := S.rounds_p) ht (by omega) hc j
  rw [Degree.extN_cast, hI] at hne
  have hstart : (fun i : Fin S.t => ((Degree.extN S.t i j : Nat) : ZMod S.modulus)) =
      externalMatrix S.t *ᵥ Pi.single j 1 := by
    rw [← Degree.extN_cast S.modulus S.t]
    funext i
    simp
  rw [hstart] at hne
  have hl := Degree.Lead.poseidon2 (show 1 < S.d by have := hs.degree; omega) (externalMatrix S.t)
    (internalMatrix S.t (vec S.diagF)) (S.rounds_f / 2) S.rounds_p (tab S.rcF) x j
  rw [show 2 * (S.rounds_f / 2) = S.rounds_f by omega] at hl
  refine ⟨_, Symbolic.lineRun x j _ _ (Symbolic.poseidon2_run Polynomial.C hP hs) (C01_permutation_eq_spec hP hs)
    fun ψ hψ z => Symbolic.poseidon2_back _ ψ hψ _ _ _ _ _ z, fun q hq => ?_⟩
  have hdeg := hl.exact hne q hq
  exact ⟨hdeg, fun g hg => Degree.agreement hdeg g hg⟩

/-- **C75**, exact degree for every shipped Poseidon instance. The polynomials are those of the plain form. -/
theorem C75_poseidon_exact (S : PoseidonSource) (hS : S ∈ Instances.poseidon) [Fact S.modulus.Prime] (dbg : Bool) :
    ∃ P, S.params dbg = some P ∧ ∀ (x : Fin S.t → ZMod S.modulus) (j : Fin S.t), ∃ y,
      LineRun (Poseidon.permutation dbg P) (Poseidon.permutationNotOpt dbg (P.map Polynomial.C)) x j y ∧
      ∀ q ∈ y, q.natDegree = S.d ^ (S.rounds_f + S.rounds_p) ∧
        ∀ g : Polynomial (ZMod S.modulus), g.natDegree < S.d ^ (S.rounds_f + S.rounds_p) →
          {a | q.eval a = g.eval a}.ncard ≤ S.d ^ (S.rounds_f + S.rounds_p) := by
  have hg := poseidon_good S hS
  have hs := hg.shaped
  obtain ⟨P, hP⟩ := hg.returns dbg
  refine ⟨P, hP, fun x j => ?_⟩
  unfold PoseidonSource.params at hP
  rw [hg.mds] at hP
  obtain ⟨hd, hev, -, ht, -⟩ := Poseidon.new_args hP
  have hc := List.all_eq_true.mp Degree.poseidon_checked S hS
  rw [Bool.and_eq_true, bne_iff_ne] at hc
  obtain ⟨hc, hrp⟩ := hc
  have hne := Degree.check_sound (rp := S.rounds_p) (by omega) (by omega) hc j
  have hstart : (fun i : Fin S.t => (((if i.val = j.val then 1 else 0 : Nat)) : ZMod S.modulus)) = Pi.single j 1 := by
    funext i
    simp [Pi.single_apply, Fin.ext_iff]
  have hM : (Matrix.of fun i j : Fin S.t => ((((S.mds.getD i []).getD j 0 : Nat)) : ZMod S.modulus)) =
      PoseidonSource.matOf S.modulus S.t S.mds := rfl
  rw [hM, hstart] at hne
  have hl := Degree.Lead.poseidon (show 1 < S.d by omega) (PoseidonSource.matOf S.modulus S.t S.mds) (S.rounds_f / 2)
    S.rounds_p (tab S.rcF) x j
  rw [show 2 * (S.rounds_f / 2) = S.rounds_f by omega] at hl
  refine ⟨_, Symbolic.lineRun x j _ _ (Symbolic.poseidon_run Polynomial.C hP hs dbg) (C12_permutation_eq_spec hP hs dbg)
    fun ψ hψ z => Symbolic.poseidon_back _ ψ hψ _ _ _ _ z, fun q hq => ?_⟩
  have hdeg := hl.exact hne q hq
  exact ⟨hdeg, fun g hg => Degree.agreement hdeg g hg⟩

/-- The bound on the number of agreements is below the number of field elements for the instances over the 255-bit and
254-bit fields (9 of 15 for either permutation); over the two small fields that bound says nothing, and the degree is that of the formal
polynomials. -/
example : ((Instances.poseidon2.filter fun S => decide (S.d ^ (S.rounds_f + S.rounds_p) * 2 ^ 50 < S.modulus)).length = 9) ∧
    ((Instances.poseidon.filter fun S => decide (S.d ^ (S.rounds_f + S.rounds_p) * 2 ^ 50 < S.modulus)).length = 9) := by
  decide +kernel

end ZkHash
