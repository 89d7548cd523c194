import Verif.Proofs.NeptuneDegree
import Verif.Theorems.DegreeExact
import Verif.Theorems.NeptuneWide

set_option autoImplicit false

/-!
# Degree of Neptune with drawn external matrices: C85
-/

namespace ZkHash

open Spec Matrix

variable {dbg : Bool}

section
variable {F : Type} [Field F] [DecidableEq F]

/-- With all words of the input fixed except any one, run on the polynomials the permutation returns polynomials of degree
exactly `D`, whose values are the results for the values of the variable. -/
def NeptuneExactDegree (dbg : Bool) (t D : Nat) (P : NeptuneParams F) : Prop :=
  ∀ (x : Fin t → F) (j : Fin t), ∃ y,
    LineRun (Neptune.permutation dbg P) (Neptune.permutation dbg (P.map Polynomial.C)) x j y ∧ ∀ q ∈ y, q.natDegree = D

/-- A criterion on the external matrix and the first entry of the diagonal, for any width. -/
theorem C85_criterion {k d rounds_f rounds_p : Nat} (hk : 0 < k) {s r : List F} {P : NeptuneParams F}
    (h : NeptuneParams.new dbg (2 * k) d rounds_f rounds_p s = some (P, r)) (hfit : rounds_f + rounds_p < 2 ^ 64)
    (hrf : 2 ≤ rounds_f) (hrp : 0 < rounds_p) (hmu : vec P.mu 0 ≠ 0) {M : Matrix (Fin (2 * k)) (Fin (2 * k)) F}
    (hme : P.m_e = rowsOf M) (hM : Degree.FullLead (rounds_f / 2) M) :
    NeptuneExactDegree dbg (2 * k) (4 ^ rounds_f * d ^ rounds_p) P := by
  intro x j
  obtain ⟨M', hme', hrun⟩ := C25_permutation_eq_spec hk h hfit
  rw [rowsOf_injective (hme'.symm.trans hme)] at hrun
  obtain ⟨hd, hev, -, -, -, -, -, -, -, -, -, hml, -, E, N, γ, -, -, hN, -⟩ := C51_constructor_iff.mp h
  have hmu1 : vec P.mu 0 + 1 ≠ 0 := by
    have hmem : vec P.mu 0 ∈ P.mu := by
      unfold vec
      rw [List.getD_eq_getElem _ _ (by omega)]
      exact List.getElem_mem _
    have := List.mem_map_of_mem (f := (· + 1)) hmem
    rw [← hN] at this
    simpa using (List.mem_filter.mp this).2
  have e : rounds_f / 2 - 1 + 1 = rounds_f / 2 := by omega
  have hne := Degree.neptune_lead_ne_zero (d := d) (rf := rounds_f / 2 - 1) hk M (vec P.mu) hrp (M *ᵥ Pi.single j 1) hmu hmu1
    (by rw [e]; exact hM.1 j _ rfl) hM.2
  rw [e] at hne
  have hl := Degree.Lead.neptune (show 1 < d by omega) M (neptuneInternal (2 * k) (vec P.mu)) P.abc.2.2
    (rounds_f / 2) rounds_p (tab P.round_constants) x j
  rw [show 2 * (rounds_f / 2) = rounds_f by omega] at hl
  exact ⟨_, Symbolic.lineRun x j _ _
    (Symbolic.neptune_run Polynomial.C Polynomial.C_injective hk h hfit hme) hrun
    fun ψ hψ z => Symbolic.neptune_back _ ψ hψ _ _ _ _ _ _ z, hl.exact hne⟩

/-- **C85**: Neptune of a width other than 4 and 8 over a finite field. With all draws fixed except the blocks of the external
matrix, the number of pairs of blocks for which the degree is less than `4 ^ rounds_f * d ^ rounds_p` for some word. With
`r = rounds_f / 2`, at most a fraction `t (w(r) + w(r - 1)) / |F|` of them, `w(r) = 1 + 4 + … + 4 ^ r`. -/
theorem C85_draws [Fintype F] {k d rounds_f rounds_p : Nat} (h2k : k ≠ 2) (h4k : k ≠ 4)
    (hd : d = 3 ∨ d = 5 ∨ d = 7) (heven : rounds_f % 2 = 0) (hfit : rounds_f + rounds_p < 2 ^ 64) (hrf : 2 ≤ rounds_f)
    (hrp : 0 < rounds_p) (hk : (k : F) ≠ 0) (h2 : (2 : F) ≠ 0)
    (rc : List (List F)) (hrc : rc.length = rounds_f + rounds_p) (hrow : ∀ row ∈ rc, row.length = 2 * k)
    (Z : Fin (2 * k) → Nat) (N : Fin (2 * k) → Fˣ) (hN : ∀ i : Fin (2 * k), i.val = 0 → N i ≠ 1) (γ : F) :
    Nat.card {x : Matrix (Fin k) (Fin k) F × Matrix (Fin k) (Fin k) F //
        ¬ ∃ P, NeptuneParams.new dbg (2 * k) d rounds_f rounds_p
            (rc.flatten ++ ((rowsOf x.1).flatten ++ (rowsOf x.2).flatten ++ (afterZeros Z N ++ [γ]))) = some (P, []) ∧
          NeptuneExactDegree dbg (2 * k) (4 ^ rounds_f * d ^ rounds_p) P} * Fintype.card F ≤
      2 * k * ((4 ^ (rounds_f / 2 + 1) - 1) / 3 + (4 ^ (rounds_f / 2) - 1) / 3) *
        Nat.card (Matrix (Fin k) (Fin k) F × Matrix (Fin k) (Fin k) F) := by
  classical
  have hk0 : 0 < k := Nat.pos_of_ne_zero fun h => hk (by rw [h, Nat.cast_zero])
  have hgood : ∀ x : Matrix (Fin k) (Fin k) F × Matrix (Fin k) (Fin k) F,
      Degree.FullLead (rounds_f / 2) (parityMatrix x.1 x.2) →
      ∃ P, NeptuneParams.new dbg (2 * k) d rounds_f rounds_p
            (rc.flatten ++ ((rowsOf x.1).flatten ++ (rowsOf x.2).flatten ++ (afterZeros Z N ++ [γ]))) = some (P, []) ∧
          NeptuneExactDegree dbg (2 * k) (4 ^ rounds_f * d ^ rounds_p) P := by
    intro x hx
    let P : NeptuneParams F :=
      { t := 2 * k, d := d, rounds_f_beginning := rounds_f / 2, rounds_p := rounds_p, rounds_f_end := rounds_f / 2,
        rounds := (rounds_f + rounds_p) % 2 ^ 64, round_constants := rc, m_e := rowsOf (parityMatrix x.1 x.2),
        mu := List.ofFn fun i => (N i : F) - 1, abc := (1, 1, γ), a_ := (1, 3, 4) }
    have hP : NeptuneParams.new dbg (2 * k) d rounds_f rounds_p
        (rc.flatten ++ ((rowsOf x.1).flatten ++ (rowsOf x.2).flatten ++ (afterZeros Z N ++ [γ]))) = some (P, []) := by
      refine C51_constructor_iff.mpr ⟨hd, heven, fun _ => hfit, rfl, rfl, rfl, rfl, rfl, rfl, ?_, hrow, ?_, rfl, _,
        afterZeros Z N, γ, rfl, rfl, ?_, afterZeros_last Z N, Or.inr (Or.inr ⟨h2k, h4k, x.1, x.2, rfl, rfl⟩)⟩
      · rw [Nat.mod_eq_of_lt hfit]; exact hrc
      · simp [P]
      · rw [afterZeros_filter, List.map_ofFn]
        congr 1
        funext i
        simp
    have hmu : vec P.mu 0 ≠ 0 := by
      have e : vec P.mu 0 = (N ⟨0, by omega⟩ : F) - 1 := by
        unfold vec
        rw [List.getD_eq_getElem _ _ (by simp [P]; omega)]
        simp [P]
      rw [e, sub_ne_zero]
      exact fun h => hN ⟨0, by omega⟩ rfl (Units.ext h)
    exact ⟨P, hP, C85_criterion hk0 hP hfit hrf hrp hmu rfl hx⟩
  have hc := Degree.card_not_full (F := F) hk h2 (rb := rounds_f / 2) (by omega)
  have hM := Branch.card_matrix (F := F) k
  rw [Nat.card_prod, hM, ← pow_add]
  unfold Degree.coefDegree at hc
  rw [show rounds_f / 2 - 1 + 1 = rounds_f / 2 by omega] at hc
  refine le_trans (Nat.mul_le_mul_right _ ?_) hc
  exact Nat.card_le_card_of_injective (fun x => ⟨x.1, fun h => x.2 (hgood x.1 h)⟩) fun x y hxy =>
    Subtype.ext (congrArg (fun z => z.1) hxy)

end

/-- **C85**, the shipped Neptune parameter sets of widths other than 4 and 8, six external rounds: unless the first diagonal
entry is 0, and whatever else was drawn, at most a fraction `106 t / p` of the blocks of the external matrix gives
parameters whose degree is not `4 ^ 6 * d ^ rounds_p` in some word. -/
theorem C85_shipped (S : Shape) (hS : S ∈ Instances.neptune) (n4 : S.t ≠ 4) (n8 : S.t ≠ 8) [Fact S.modulus.Prime] (dbg : Bool)
    (rc : List (List (ZMod S.modulus))) (hrc : rc.length = S.rounds_f + S.rounds_p) (hrow : ∀ row ∈ rc, row.length = S.t)
    (Z : Fin S.t → Nat) (N : Fin S.t → (ZMod S.modulus)ˣ) (hN : ∀ i : Fin S.t, i.val = 0 → N i ≠ 1) (γ : ZMod S.modulus) :
    Nat.card {x : Matrix (Fin (S.t / 2)) (Fin (S.t / 2)) (ZMod S.modulus) ×
          Matrix (Fin (S.t / 2)) (Fin (S.t / 2)) (ZMod S.modulus) //
        ¬ ∃ P, NeptuneParams.new dbg S.t S.d S.rounds_f S.rounds_p
            (rc.flatten ++ ((rowsOf x.1).flatten ++ (rowsOf x.2).flatten ++ (afterZeros Z N ++ [γ]))) = some (P, []) ∧
          NeptuneExactDegree dbg S.t (4 ^ 6 * S.d ^ S.rounds_p) P} * S.modulus ≤
      106 * S.t * Nat.card (Matrix (Fin (S.t / 2)) (Fin (S.t / 2)) (ZMod S.modulus) ×
          Matrix (Fin (S.t / 2)) (Fin (S.t / 2)) (ZMod S.modulus)) := by
  obtain ⟨-, hd, ht2, ht, heven, hfit⟩ := neptune_good S hS
  have hc := List.all_eq_true.mp shapes_checked S (List.mem_append_left _ hS)
  simp only [Bool.and_eq_true, bne_iff_ne, beq_iff_eq, List.contains_iff_mem] at hc
  have hle : 2013265921 ≤ S.modulus := Branch.declared_le hc.1.1
  have hsh : (Instances.neptune.all fun S => decide (S.rounds_f = 6 ∧ 0 < S.rounds_p ∧ S.t ≤ 24)) = true := by decide +kernel
  have hsh := List.all_eq_true.mp hsh S hS
  rw [decide_eq_true_eq] at hsh
  obtain ⟨h6, hrp, h24⟩ := hsh
  have hsmall : ∀ n : Nat, 0 < n → n ≤ 24 → ((n : Nat) : ZMod S.modulus) ≠ 0 := by
    intro n h0 h5 he
    have := Nat.le_of_dvd h0 ((ZMod.natCast_eq_zero_iff n _).mp he)
    omega
  have hcard := ZMod.card S.modulus
  obtain ⟨k, hk⟩ : ∃ k, S.t = 2 * k := ⟨S.t / 2, by omega⟩
  rw [h6] at hrc hfit ⊢
  generalize S.t = t at *
  subst hk
  have hk2 : 2 * k / 2 = k := by omega
  have := C85_draws (dbg := dbg) (k := k) (rounds_f := 6) (by omega) (by omega) hd rfl hfit (by omega) hrp
    (hsmall k (by omega) (by omega)) (by exact_mod_cast hsmall 2 (by omega) (by omega)) rc hrc hrow Z N hN γ
  rw [hcard] at this
  rw [hk2, show 106 * (2 * k) = 2 * k * ((4 ^ (6 / 2 + 1) - 1) / 3 + (4 ^ (6 / 2) - 1) / 3) by
    rw [show ((4 ^ (6 / 2 + 1) - 1) / 3 + (4 ^ (6 / 2) - 1) / 3) = 106 from rfl]; ring]
  exact this

/-- The fractions for the shipped shapes with drawn blocks: width and how many times `106 t` fits into `p`. -/
example : (Instances.neptune.filter fun S => S.t ≠ 4 ∧ S.t ≠ 8).map (fun S => (S.t, S.modulus / (106 * S.t))) =
    [(12, 14502157287275616), (16, 10876617965456712), (20, 8701294372365369), (16, 1187067), (24, 791378)] := by
  decide +kernel

local instance fact10007 : Fact (Nat.Prime 10007) := ⟨by norm_num⟩

/-- A field that meets the hypotheses of `C85_draws`, width 6, with two rounds at each end: a fraction of at most
`6 * 26 / 10007`. -/
example (Z : Fin (2 * 3) → Nat) (N : Fin (2 * 3) → (ZMod 10007)ˣ) (hN : ∀ i : Fin (2 * 3), i.val = 0 → N i ≠ 1) :=
  C85_draws (F := ZMod 10007) (dbg := dbg) (k := 3) (d := 5) (rounds_f := 4) (rounds_p := 2) (by decide) (by decide)
    (Or.inr (Or.inl rfl)) rfl (by decide) (by decide) (by decide) (by decide) (by decide)
    (List.replicate 6 (List.replicate 6 1)) rfl (by decide) Z N hN 7

local instance fact7' : Fact (Nat.Prime 7) := ⟨by decide⟩

/-- A draw of width 6 over the field of seven elements that meets the hypotheses of `C85_criterion`. -/
example : ∃ P, NeptuneParams.new dbg (2 * 3) 5 4 2 (List.replicate 36 3 ++ [0, 6, 3, 3, 4, 6, 6, 0, 5, 3, 2, 5, 6, 1, 4, 0, 2, 0] ++
      [0, 2, 3, 0, 2, 5, 6, 3, 4] : List (ZMod 7)) = some (P, []) ∧ NeptuneExactDegree dbg (2 * 3) (4 ^ 4 * 5 ^ 2) P := by
  refine ⟨_, rfl, ?_⟩
  refine C85_criterion (k := 3) (d := 5) (by decide) (s := List.replicate 36 3 ++
    [0, 6, 3, 3, 4, 6, 6, 0, 5, 3, 2, 5, 6, 1, 4, 0, 2, 0] ++ [0, 2, 3, 0, 2, 5, 6, 3, 4]) (r := []) rfl (by decide) (by decide)
    (by decide) ?_ (M := parityMatrix !![0, 6, 3; 3, 4, 6; 6, 0, 5] !![3, 2, 5; 6, 1, 4; 0, 2, 0]) rfl ?_
  · decide +kernel
  · unfold Degree.FullLead
    decide +kernel

end ZkHash
