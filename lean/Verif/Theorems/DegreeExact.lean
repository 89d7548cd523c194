import Verif.Proofs.DegreeExact
import Verif.Proofs.SymbolicRun
import Verif.Theorems.Degree
import Verif.Theorems.ShippedOther
import Verif.Theorems.NeptuneBranch

set_option autoImplicit false

/-!
# Degrees of GMiMC and Neptune: C78
-/

namespace ZkHash

open Spec Matrix

variable {dbg : Bool}

/-- **C78**, GMiMC. Let all words of the input be fixed except word `j`, which is the variable. Word `j` reaches the S-box
after `(t - j) % t` rounds; with `m` the number of rounds from there on, run on these polynomials the permutation returns
monic polynomials, of degree `d ^ m`, and of degree `d ^ (m - 1)` for word 0. -/
theorem C78_gmimc {F : Type} [Field F] (dbg : Bool) {t d rounds : Nat} (ht : 2 ≤ t) {stream rest : List F}
    {P : GmimcParams F} (hlen : rounds ≤ stream.length) (hP : GmimcParams.new t d rounds stream = some (P, rest))
    (x : Fin t → F) (j : Fin t) (hr : (t - j.val) % t < rounds) :
    ∃ y, LineRun (Gmimc.permutation dbg P) (Gmimc.permutation dbg (P.map Polynomial.C)) x j y ∧
      ∀ (i : Nat) (q : Polynomial F), y[i]? = some q → q.Monic ∧
        q.natDegree = d ^ (rounds - (t - j.val) % t - if i = 0 then 1 else 0) := by
  obtain ⟨h1, h2⟩ := C21_new t d rounds stream hlen
  obtain ⟨rfl, hl, -⟩ := h2 P rest hP
  have hd : d = 3 ∨ d = 5 ∨ d = 7 := by
    by_contra h
    rw [h1.mpr (by omega)] at hP
    cases hP
  obtain ⟨n, rfl⟩ : ∃ n, rounds = n + 1 := ⟨rounds - 1, by omega⟩
  obtain ⟨s, rfl⟩ : ∃ s, t = s + 1 := ⟨t - 1, by omega⟩
  obtain ⟨m, hm⟩ : ∃ m, n = (s + 1 - j.val) % (s + 1) + m := ⟨n - (s + 1 - j.val) % (s + 1), by omega⟩
  obtain ⟨v, hv, hlead⟩ := Degree.Lead.gmimc_active (d := d) (by omega) (show 0 < s by omega)
    (vec (stream.take (n + 1))) x j m
  rw [← hm] at hlead
  refine ⟨_, Symbolic.lineRun x j _ _
    (Symbolic.gmimc_run Polynomial.C (s := s) (n := n) dbg ⟨s + 1, d, n + 1, stream.take (n + 1)⟩ rfl rfl hd hl.ge)
    (C19_permutation_eq_spec (s := s) (n := n) dbg ⟨s + 1, d, n + 1, stream.take (n + 1)⟩ rfl rfl hd hl.ge)
    fun ψ hψ z => Symbolic.gmimc_back _ ψ hψ _ _ z, fun i q hq => ?_⟩
  rw [List.getElem?_ofFn] at hq
  split at hq
  case isFalse => cases hq
  case isTrue hi =>
    rw [Option.some.injEq] at hq
    subst hq
    by_cases hi0 : i = 0
    · subst hi0
      have h0 : (⟨0, hi⟩ : Fin (s + 1)) = 0 := rfl
      rw [h0]
      obtain ⟨q1, q2⟩ := hlead.feistel_zero (d := d) (vec (stream.take (n + 1)) n)
      rw [hv] at q2
      have hdeg := le_antisymm q1 (Polynomial.le_natDegree_of_ne_zero (by rw [q2]; exact one_ne_zero))
      refine ⟨?_, ?_⟩
      · rw [Polynomial.Monic, Polynomial.leadingCoeff]
        exact (congrArg _ hdeg).trans q2
      · refine hdeg.trans ?_
        congr 1
        simp only [if_true]
        omega
    · obtain ⟨q1, q2⟩ := hlead.feistel (pow_pos (by omega) m) (show 1 < d by omega) (vec (stream.take (n + 1)) n) ⟨i, hi⟩
      have hi' : (⟨i, hi⟩ : Fin (s + 1)) ≠ 0 := fun h => hi0 (congrArg Fin.val h)
      beta_reduce at q2
      rw [if_neg hi', hv, one_pow, ← pow_succ'] at q2
      rw [← pow_succ'] at q1
      have hdeg := le_antisymm q1 (Polynomial.le_natDegree_of_ne_zero (by rw [q2]; exact one_ne_zero))
      refine ⟨?_, ?_⟩
      · rw [Polynomial.Monic, Polynomial.leadingCoeff]
        exact (congrArg _ hdeg).trans q2
      · refine hdeg.trans ?_
        congr 1
        rw [if_neg hi0]
        omega

/-- The shipped GMiMC shapes have more rounds than words, so every word reaches the S-box. -/
theorem C78_gmimc_shipped (S : Shape) (hS : S ∈ Instances.gmimc) (j : Fin S.t) : (S.t - j.val) % S.t < S.rounds_f := by
  have h : (Instances.gmimc.all fun S => decide (0 < S.t ∧ S.t ≤ S.rounds_f)) = true := by decide +kernel
  have := List.all_eq_true.mp h S hS
  rw [decide_eq_true_eq] at this
  exact lt_of_lt_of_le (Nat.mod_lt _ this.1) this.2

/-- **C78**, Neptune of width 4, upper bound: with `rounds_f / 2` external rounds at each end the degree is not
`4 ^ rounds_f * d ^ rounds_p` but at most `neptune4Degree (rounds_f / 2) ^ 2 * d ^ rounds_p`. -/
theorem C78_neptune4 {F : Type} [Field F] [DecidableEq F] {d rounds_f rounds_p : Nat} {s r : List F}
    {P : NeptuneParams F} (h : NeptuneParams.new dbg 4 d rounds_f rounds_p s = some (P, r))
    (hfit : rounds_f + rounds_p < 2 ^ 64) :
    ∃ y, FullRun (t := 4) (Neptune.permutation dbg P) (Neptune.permutation dbg (P.map MvPolynomial.C)) y ∧
      ∀ q ∈ y, q.totalDegree ≤ neptune4Degree (rounds_f / 2) ^ 2 * d ^ rounds_p := by
  obtain ⟨M, hme, hM⟩ := C25_permutation_eq_spec (k := 2) (by omega) h hfit
  obtain ⟨A, B, -, h4, -⟩ := NeptuneParams.ext_of_new (k := 2) h
  have hd := ((C51_constructor_iff (k := 2)).mp h).1
  rw [rowsOf_injective (hme.symm.trans (h4 rfl))] at hM hme
  have h' := Degree.neptune4 (show 0 < d by omega) (neptuneInternal (2 * 2) (vec P.mu)) P.abc.2.2
    (rounds_f / 2) rounds_p (tab P.round_constants)
  have e : neptune4Degree (rounds_f / 2) * (d ^ rounds_p * neptune4Degree (rounds_f / 2)) =
      neptune4Degree (rounds_f / 2) ^ 2 * d ^ rounds_p := by ring
  rw [e] at h'
  refine ⟨_, Symbolic.fullRun (t := 4) _ _
    (Symbolic.neptune_run (k := 2) MvPolynomial.C (MvPolynomial.C_injective _ _) (by omega) h hfit hme) hM
    fun ψ hψ z => Symbolic.neptune_back (k := 2) _ ψ hψ _ _ _ _ _ _ z, fun q hq => ?_⟩
  obtain ⟨i, rfl⟩ := (List.mem_ofFn' _ _).mp hq
  exact h' i

/-- **C78**, Neptune of width 4, exact degree: in a field where 2, 3 and 5 are not 0, with at least two external rounds at
each end and at least one internal one, and unless the first entry of the drawn diagonal is 0, every word of the result
is, in each single input word, a polynomial of degree exactly `neptune4Degree (rounds_f / 2) ^ 2 * d ^ rounds_p`. So the
bound of `C78_neptune4` is attained. -/
theorem C78_neptune4_exact {F : Type} [Field F] [DecidableEq F] {d rounds_f rounds_p : Nat} {s r : List F}
    {P : NeptuneParams F} (h : NeptuneParams.new dbg 4 d rounds_f rounds_p s = some (P, r))
    (hfit : rounds_f + rounds_p < 2 ^ 64) (h30 : (2 : F) ≠ 0 ∧ (3 : F) ≠ 0 ∧ (5 : F) ≠ 0) (hrf : 4 ≤ rounds_f)
    (hrp : 0 < rounds_p) (hmu : vec P.mu 0 ≠ 0) (x : Fin 4 → F) (j : Fin 4) :
    ∃ y, LineRun (Neptune.permutation dbg P) (Neptune.permutation dbg (P.map Polynomial.C)) x j y ∧
      ∀ q ∈ y, q.natDegree = neptune4Degree (rounds_f / 2) ^ 2 * d ^ rounds_p := by
  obtain ⟨M, hme, hM⟩ := C25_permutation_eq_spec (k := 2) (by omega) h hfit
  obtain ⟨A, B, -, h4, -⟩ := NeptuneParams.ext_of_new (k := 2) h
  rw [rowsOf_injective (hme.symm.trans (h4 rfl))] at hM hme
  obtain ⟨hd, -, -, -, -, -, -, -, -, -, -, hml, -, E, N, γ, -, -, hN, -⟩ := (C51_constructor_iff (k := 2)).mp h
  have hmu1 : vec P.mu 0 + 1 ≠ 0 := by
    have hmem : vec P.mu 0 ∈ P.mu := by
      unfold vec
      rw [List.getD_eq_getElem _ _ (by omega)]
      exact List.getElem_mem _
    have := List.mem_map_of_mem (f := (· + 1)) hmem
    rw [← hN] at this
    simpa using (List.mem_filter.mp this).2
  have h30' : (30 : F) ≠ 0 := by
    rw [show (30 : F) = 2 * 3 * 5 by norm_num]
    exact mul_ne_zero (mul_ne_zero h30.1 h30.2.1) h30.2.2
  obtain ⟨w, hw, hl⟩ := Degree.neptune4_lead (d := d) (by omega) h30' (vec P.mu) hmu hmu1 P.abc.2.2
    (rounds_f / 2 - 2) (rounds_p - 1) (tab P.round_constants) x j
  rw [show rounds_f / 2 - 2 + 2 = rounds_f / 2 by omega, show rounds_p - 1 + 1 = rounds_p by omega] at hl
  exact ⟨_, Symbolic.lineRun (t := 4) x j _ _
    (Symbolic.neptune_run (k := 2) Polynomial.C Polynomial.C_injective (by omega) h hfit hme) hM
    fun ψ hψ z => Symbolic.neptune_back (k := 2) _ ψ hψ _ _ _ _ _ _ z, hl.exact hw⟩

/-- The shipped shapes of width 4 meet the conditions on field and rounds. -/
theorem C78_neptune4_shipped (S : Shape) (hS : S ∈ Instances.neptune) (h4 : S.t = 4) [Fact S.modulus.Prime]
    {s r : List (ZMod S.modulus)} {P : NeptuneParams (ZMod S.modulus)}
    (h : NeptuneParams.new dbg S.t S.d S.rounds_f S.rounds_p s = some (P, r))
    (hmu : vec P.mu 0 ≠ 0) (x : Fin 4 → ZMod S.modulus) (j : Fin 4) :
    ∃ y, LineRun (Neptune.permutation dbg P) (Neptune.permutation dbg (P.map Polynomial.C)) x j y ∧
      ∀ q ∈ y, q.natDegree = neptune4Degree 3 ^ 2 * S.d ^ S.rounds_p := by
  obtain ⟨-, -, -, -, -, hfit⟩ := neptune_good S hS
  have hc : (Instances.neptune.all fun S => S.t != 4 ||
      decide (S.rounds_f = 6 ∧ 0 < S.rounds_p ∧ 5 < S.modulus)) = true := by decide +kernel
  have hc := List.all_eq_true.mp hc S hS
  rw [h4] at h hc
  simp only [bne_self_eq_false, Bool.false_or, decide_eq_true_eq] at hc
  obtain ⟨h6, hrp, hm⟩ := hc
  have hn : ∀ n : Nat, 0 < n → n ≤ 5 → ((n : Nat) : ZMod S.modulus) ≠ 0 := by
    intro n h0 h5 he
    have := Nat.le_of_dvd h0 ((ZMod.natCast_eq_zero_iff n _).mp he)
    omega
  have := C78_neptune4_exact h hfit ⟨by exact_mod_cast hn 2 (by omega) (by omega), by exact_mod_cast hn 3 (by omega) (by omega),
    by exact_mod_cast hn 5 (by omega) (by omega)⟩ (by omega) hrp hmu x j
  rw [h6] at this
  exact this

/-- From three external rounds on, this is less. -/
theorem C78_neptune4_less (r : Nat) (hr : 3 ≤ r) : neptune4Degree r < 4 ^ r := by
  have gen : ∀ r, neptune4Degree r ≤ 4 ^ r ∧ neptune4Degree (r + 1) ≤ 4 ^ (r + 1) ∧ neptune4Degree (r + 2) ≤ 4 ^ (r + 2) ∧
      neptune4Degree (r + 3) < 4 ^ (r + 3) := by
    intro r
    induction r with
    | zero => decide
    | succ r ih =>
      obtain ⟨-, h1, h2, h3⟩ := ih
      refine ⟨h1, h2, h3.le, ?_⟩
      have e : neptune4Degree (r + 4) = 3 * neptune4Degree (r + 3) + 2 * neptune4Degree (r + 2) := rfl
      rw [e]
      have e1 : 4 ^ (r + 1 + 3) = 4 * 4 ^ (r + 3) := by rw [← pow_succ']
      have e2 : 4 ^ (r + 3) = 4 * 4 ^ (r + 2) := by rw [← pow_succ']
      omega
  obtain ⟨n, rfl⟩ : ∃ n, r = n + 3 := ⟨r - 3, by omega⟩
  exact (gen n).2.2.2

namespace Degree

/-- The fixed external matrix of width 8 on integers. -/
def ext8N (i j : Nat) : Nat :=
  if i % 2 ≠ j % 2 then 0
  else
    let A := [[3, 2, 1, 1], [1, 3, 2, 1], [1, 1, 3, 2], [2, 1, 1, 3]]
    let B := [[1, 1, 2, 3], [3, 1, 1, 2], [2, 3, 1, 1], [1, 2, 3, 1]]
    ((if i % 2 = 0 then A else B).getD (i / 2) []).getD (j / 2) 0

theorem ext8N_cast (p : Nat) [Fact p.Prime] :
    (Matrix.of fun i j : Fin (2 * 4) => ((ext8N i j : Nat) : ZMod p)) = neptuneExt8 := by
  ext i j
  fin_cases i <;> fin_cases j <;> simp [ext8N, neptuneExt8, parityMatrix]

theorem neptune8_checked : (Instances.neptune.all fun S =>
    S.t != 8 || (neptuneCheck S.modulus 4 (S.rounds_f / 2 - 1) ext8N && S.rounds_p != 0 && S.rounds_f / 2 != 0)) = true := by
  decide +kernel

end Degree

/-- **C78**, the shipped Neptune instances of width 8, exact degree: unless the first entry of the drawn diagonal is 0,
with all words of the input fixed except word `j`, every word of the result is a polynomial in that word of degree
exactly `4 ^ rounds_f * d ^ rounds_p`. -/
theorem C78_neptune8 (S : Shape) (hS : S ∈ Instances.neptune) (h8 : S.t = 8) [Fact S.modulus.Prime]
    {s r : List (ZMod S.modulus)} {P : NeptuneParams (ZMod S.modulus)}
    (h : NeptuneParams.new dbg S.t S.d S.rounds_f S.rounds_p s = some (P, r))
    (hmu : vec P.mu 0 ≠ 0) (x : Fin 8 → ZMod S.modulus) (j : Fin 8) :
    ∃ y, LineRun (Neptune.permutation dbg P) (Neptune.permutation dbg (P.map Polynomial.C)) x j y ∧
      ∀ q ∈ y, q.natDegree = 4 ^ S.rounds_f * S.d ^ S.rounds_p := by
  obtain ⟨-, hd, -, -, hev, hfit⟩ := neptune_good S hS
  have hc := List.all_eq_true.mp Degree.neptune8_checked S hS
  rw [h8] at h hc
  simp only [bne_self_eq_false, Bool.false_or, Bool.and_eq_true, bne_iff_ne] at hc
  obtain ⟨⟨hc, hrp⟩, hrf⟩ := hc
  obtain ⟨M, hme, hM⟩ := C25_permutation_eq_spec (k := 4) (by omega) h hfit
  obtain ⟨A, B, -, -, hM8⟩ := NeptuneParams.ext_of_new (k := 4) h
  rw [rowsOf_injective (hme.symm.trans (hM8 rfl))] at hM hme
  have hmu1 : vec P.mu 0 + 1 ≠ 0 := by
    obtain ⟨-, -, -, -, -, -, -, -, -, -, -, hml, -, E, N, γ, -, -, hN, -⟩ := (C51_constructor_iff (k := 4)).mp h
    have hmem : vec P.mu 0 ∈ P.mu := by
      unfold vec
      rw [List.getD_eq_getElem _ _ (by omega)]
      exact List.getElem_mem _
    have := List.mem_map_of_mem (f := (· + 1)) hmem
    rw [← hN] at this
    simpa using (List.mem_filter.mp this).2
  have hne := Degree.neptuneCheck_sound (rp := S.rounds_p) (d := S.d) (by omega) (by omega) hc (vec P.mu) hmu
    hmu1 j
  rw [Degree.ext8N_cast, show S.rounds_f / 2 - 1 + 1 = S.rounds_f / 2 by omega] at hne
  have hl := Degree.Lead.neptune (show 1 < S.d by omega) neptuneExt8 (neptuneInternal (2 * 4) (vec P.mu)) P.abc.2.2
    (S.rounds_f / 2) S.rounds_p (tab P.round_constants) x j
  rw [show 2 * (S.rounds_f / 2) = S.rounds_f by omega] at hl
  exact ⟨_, Symbolic.lineRun (t := 8) x j _ _
    (Symbolic.neptune_run (k := 4) Polynomial.C Polynomial.C_injective (by omega) h hfit hme) hM
    fun ψ hψ z => Symbolic.neptune_back (k := 4) _ ψ hψ _ _ _ _ _ _ z, hl.exact hne⟩

/-- Three shipped shapes have width 8 and four have width 4, all with six external rounds; there the bound for width 4 is
`56 ^ 2 = 3136` in place of `4 ^ 6 = 4096`. -/
example : (Instances.neptune.filter fun S => S.t == 8 && S.rounds_f == 6).length = 3 ∧
    (Instances.neptune.filter fun S => S.t == 4 && S.rounds_f == 6).length = 4 ∧ neptune4Degree (6 / 2) ^ 2 = 3136 := by
  decide +kernel

end ZkHash
