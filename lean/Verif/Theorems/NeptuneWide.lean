import Verif.Proofs.MdsCount
import Verif.Theorems.NeptuneTrail

set_option autoImplicit false

/-!
# S-boxes with different inputs in Neptune of any width: C83
-/

namespace ZkHash

open Spec Matrix

variable {dbg : Bool}

/-- The bound of C73 for the parameter set `P`, with `rb = rounds_f / 2`: for any two different inputs there are state
sequences of the two computations such that any external round in which the states differ and the state after it have
together at least `t / 2 + 1` pairs of positions that differ; the first `rb` rounds have at least
`(rb / 2) * (t / 2 + 1) + rb % 2` S-boxes with different inputs; and if the two results are different, so do the last
`rb` rounds. -/
def ManyActive {F : Type} [Field F] [DecidableEq F] (dbg : Bool) (t rounds_f rounds_p : Nat) (P : NeptuneParams F) : Prop :=
  ∀ x y : Fin t → F, x ≠ y → ∃ s s' : Nat → List F,
    Neptune.externalMatmul P (List.ofFn x) = some (s 0) ∧
    Neptune.externalMatmul P (List.ofFn y) = some (s' 0) ∧
    Trail (Neptune.externalRound P) (Neptune.internalRound P) (rounds_f / 2) rounds_p (rounds_f + rounds_p) s ∧
    Trail (Neptune.externalRound P) (Neptune.internalRound P) (rounds_f / 2) rounds_p (rounds_f + rounds_p) s' ∧
    Neptune.permutation dbg P (List.ofFn x) = some (s (rounds_f + rounds_p)) ∧
    Neptune.permutation dbg P (List.ofFn y) = some (s' (rounds_f + rounds_p)) ∧
    (∀ r < rounds_f + rounds_p, (r < rounds_f / 2 ∨ rounds_f / 2 + rounds_p ≤ r) → s r ≠ s' r →
      t / 2 + 1 ≤ activePairs (s r) (s' r) + activePairs (s (r + 1)) (s' (r + 1))) ∧
    (rounds_f / 2 / 2 * (t / 2 + 1) + rounds_f / 2 % 2 ≤
      ∑ r ∈ Finset.range (rounds_f / 2), activePairs (s r) (s' r)) ∧
    (Neptune.permutation dbg P (List.ofFn x) ≠ Neptune.permutation dbg P (List.ofFn y) →
      rounds_f / 2 / 2 * (t / 2 + 1) + rounds_f / 2 % 2 ≤
        ∑ i ∈ Finset.range (rounds_f / 2),
          activePairs (s (rounds_f / 2 + rounds_p + i)) (s' (rounds_f / 2 + rounds_p + i)))

section
variable {F : Type} [Field F] [DecidableEq F]

theorem det_ne_zero_of_mds {k : Nat} {A : Matrix (Fin k) (Fin k) F} (h : IsMDS A) : A.det ≠ 0 :=
  h k (Function.Embedding.refl _) (Function.Embedding.refl _)

theorem manyActive_of_mds {k d rounds_f rounds_p : Nat} (hk : 0 < k) {P : NeptuneParams F}
    {A B : Matrix (Fin k) (Fin k) F} (hm : NeptuneParams.Made k d rounds_f rounds_p P A B)
    (h4 : k = 2 → P.m_e = rowsOf (neptuneExt4 (F := F))) (h8 : k = 4 → P.m_e = rowsOf (neptuneExt8 (F := F)))
    (hfit : rounds_f + rounds_p < 2 ^ 64) (h5 : (5 : F) ≠ 0) (hA : IsMDS A) (hB : IsMDS B) :
    ManyActive dbg (2 * k) rounds_f rounds_p P := by
  obtain ⟨σ, g1, g2, g3, g4⟩ := NeptuneTrail.sequences (dbg := dbg) hk hm h4 h8 hfit (Branch.norm_of_mds hA)
    (Branch.norm_of_mds hB) h5
    (by rw [parityMatrix_det]; exact mul_ne_zero (det_ne_zero_of_mds hA) (det_ne_zero_of_mds hB))
  intro x y hxy
  obtain ⟨g5, g6, g7⟩ := g4 x y hxy
  have hev := hm.even
  refine ⟨fun r => List.ofFn (σ x r), fun r => List.ofFn (σ y r), g1 x, g1 y, g2 x, g2 y, g3 x, g3 y, ?_, ?_, fun hne => ?_⟩
  · intro r hr hc hne
    simp only [NeptuneTrail.activePairs_ofFn]
    rw [Nat.mul_div_cancel_left k (by omega)]
    exact g5 r hr hc fun he => hne (by simp only [he])
  all_goals
    simp only [NeptuneTrail.activePairs_ofFn]
    rw [Nat.mul_div_cancel_left k (by omega)]
  · have := Trail.pairs (fun r => if r < rounds_f / 2 then NeptuneTrail.pd (σ x r) (σ y r) else 1) (k + 1) (fun r => by
      split
      · exact NeptuneTrail.pd_pos (g6 r (by omega))
      · exact le_rfl) (rounds_f / 2) 0 (fun r h1 h2 => by
        rw [if_pos (by omega), if_pos (by omega)]
        exact g5 r (by omega) (by omega) (g6 r (by omega)))
    refine this.trans (le_of_eq (Finset.sum_congr rfl fun i hi => ?_))
    have hi := Finset.mem_range.mp hi
    rw [Nat.zero_add, if_pos hi]
  · have g7 := g7 fun he => hne (by rw [g3, g3, he])
    have := Trail.pairs (fun r => if r < rounds_f + rounds_p then NeptuneTrail.pd (σ x r) (σ y r) else 1) (k + 1) (fun r => by
      split
      · exact NeptuneTrail.pd_pos (g7 r (by omega))
      · exact le_rfl) (rounds_f / 2) (rounds_f / 2 + rounds_p) (fun r h1 h2 => by
        rw [if_pos (by omega), if_pos (by omega)]
        exact g5 r (by omega) (by omega) (g7 r (by omega)))
    refine this.trans (le_of_eq (Finset.sum_congr rfl fun i hi => ?_))
    have hi := Finset.mem_range.mp hi
    rw [if_pos (by omega)]

theorem blocks_of_parity {k : Nat} {M : List (List F)} {A B : Matrix (Fin k) (Fin k) F} (hm : M = rowsOf (parityMatrix A B)) :
    (Matrix.of fun i j : Fin k => tab M (2 * i) (2 * j)) = A ∧
    (Matrix.of fun i j : Fin k => tab M (2 * i + 1) (2 * j + 1)) = B := by
  rw [hm]
  constructor
  · ext i j
    have hi : 2 * i.val < 2 * k := by omega
    have hj : 2 * j.val < 2 * k := by omega
    simp [tab, rowsOf, List.getD, hi, hj, parityMatrix]
  · ext i j
    have hi : 2 * i.val + 1 < 2 * k := by omega
    have hj : 2 * j.val + 1 < 2 * k := by omega
    simp [tab, rowsOf, List.getD, hi, hj, parityMatrix, Nat.add_mod, Nat.add_div]

/-- A vector on the even (`e = 0`) or on the odd (`e = 1`) positions. -/
def spread {k : Nat} (e : Nat) (v : Fin k → F) : Fin (2 * k) → F := fun i => if i.val % 2 = e then v ⟨i / 2, by omega⟩ else 0

theorem spread_at {k : Nat} {e : Nat} (he : e < 2) (v : Fin k → F) (i : Fin k) : spread e v ⟨2 * i + e, by omega⟩ = v i := by
  unfold spread
  rw [if_pos (by dsimp only; omega)]
  exact congrArg v (Fin.ext (by dsimp only; omega))

theorem spread_off {k : Nat} {e e' : Nat} (he : e < 2) (he' : e' < 2) (hne : e ≠ e') (v : Fin k → F) (i : Fin k) :
    spread e v ⟨2 * i + e', by omega⟩ = 0 := by
  unfold spread
  exact if_neg (by dsimp only; omega)

/-- The pairs in which two states differ, if they agree on one of the two halves. -/
theorem pd_half {k : Nat} {e e' : Nat} (he : e < 2) (he' : e' < 2) (hne : e ≠ e') {x y : Fin (2 * k) → F}
    (h0 : ∀ i : Fin k, x ⟨2 * i + e', by omega⟩ = y ⟨2 * i + e', by omega⟩) :
    NeptuneTrail.pd x y = hammingNorm fun i : Fin k => (x - y) ⟨2 * i + e, by omega⟩ := by
  unfold NeptuneTrail.pd hammingNorm
  congr 1
  apply Finset.filter_congr
  intro i _
  have h := h0 i
  show _ ↔ x ⟨2 * i + e, by omega⟩ - y ⟨2 * i + e, by omega⟩ ≠ 0
  rw [Ne, Ne, Ne, sub_eq_zero]
  obtain rfl | rfl : e = 0 ∨ e = 1 := by omega
  · obtain rfl : e' = 1 := by omega
    simp [h]
  · obtain rfl : e' = 0 := by omega
    have h : x ⟨2 * i, by omega⟩ = y ⟨2 * i, by omega⟩ := h
    simp [h]

/-- **C83.** Neptune parameters of any width `2k` over any field with `5 ≠ 0`, however they were drawn: if no minor of the two
blocks of the external matrix (on the even and on the odd positions) vanishes, the bounds of C73 hold. -/
theorem C83_many_active {k d rounds_f rounds_p : Nat} (hk : 0 < k) {s r : List F} {P : NeptuneParams F}
    (h : NeptuneParams.new dbg (2 * k) d rounds_f rounds_p s = some (P, r)) (hfit : rounds_f + rounds_p < 2 ^ 64)
    (h5 : (5 : F) ≠ 0) (hA : IsMDS (Matrix.of fun i j : Fin k => tab P.m_e (2 * i) (2 * j)))
    (hB : IsMDS (Matrix.of fun i j : Fin k => tab P.m_e (2 * i + 1) (2 * j + 1))) :
    ManyActive dbg (2 * k) rounds_f rounds_p P := by
  obtain ⟨A, B, hm, h4, h8⟩ := NeptuneParams.ext_of_new h
  obtain ⟨e1, e2⟩ := blocks_of_parity hm.m_e_eq
  rw [e1] at hA
  rw [e2] at hB
  exact manyActive_of_mds hk hm h4 h8 hfit h5 hA hB

/-- **C83**, the condition is exact for the bound on one layer: of the pairs of positions before and after the external
layer at least `k + 1` differ, for any two different states, if and only if no minor of the two blocks vanishes. -/
theorem C83_layer_iff {k d rounds_f rounds_p : Nat} {s r : List F} {P : NeptuneParams F}
    (h : NeptuneParams.new dbg (2 * k) d rounds_f rounds_p s = some (P, r)) :
    (∀ x y : Fin (2 * k) → F, x ≠ y → ∃ x' y', Neptune.externalMatmul P (List.ofFn x) = some x' ∧
        Neptune.externalMatmul P (List.ofFn y) = some y' ∧
        k + 1 ≤ activePairs (List.ofFn x) (List.ofFn y) + activePairs x' y') ↔
      IsMDS (Matrix.of fun i j : Fin k => tab P.m_e (2 * i) (2 * j)) ∧
      IsMDS (Matrix.of fun i j : Fin k => tab P.m_e (2 * i + 1) (2 * j + 1)) := by
  obtain ⟨A, B, hm, h4, h8⟩ := NeptuneParams.ext_of_new h
  obtain ⟨e1, e2⟩ := blocks_of_parity hm.m_e_eq
  rw [e1, e2]
  have hE := Neptune.externalMatmul_ofFn P hm.t_eq A B hm.m_e_eq h4 h8
  constructor
  · intro H
    have key : ∀ x : Fin (2 * k) → F, x ≠ 0 → k + 1 ≤ NeptuneTrail.pd x 0 + NeptuneTrail.pd (parityMatrix A B *ᵥ x) 0 := by
      intro x hx
      obtain ⟨x', y', h1, h2, h3⟩ := H x 0 hx
      rw [hE] at h1 h2
      rw [← Option.some.inj h1, ← Option.some.inj h2, NeptuneTrail.activePairs_ofFn, NeptuneTrail.activePairs_ofFn,
        mulVec_zero] at h3
      exact h3
    refine ⟨Branch.mds_of_norm fun v hv => ?_, Branch.mds_of_norm fun v hv => ?_⟩
    · have := key (spread 0 v) fun h => hv (funext fun i => by
        have := congrFun h ⟨2 * i + 0, by omega⟩
        rwa [spread_at (by omega)] at this)
      rw [pd_half (e := 0) (e' := 1) (by omega) (by omega) (by omega) (fun i => by
          rw [spread_off (by omega) (by omega) (by omega)]; rfl),
        pd_half (e := 0) (e' := 1) (by omega) (by omega) (by omega) (fun i => by
          rw [Branch.parity_odd]
          simp only [spread_off (e := 0) (e' := 1) (by omega) (by omega) (by omega)]
          exact congrFun (mulVec_zero B) i)] at this
      simp only [sub_zero, Branch.parity_even, spread_at (e := 0) (by omega)] at this
      exact this
    · have := key (spread 1 v) fun h => hv (funext fun i => by
        have := congrFun h ⟨2 * i + 1, by omega⟩
        rwa [spread_at (by omega)] at this)
      rw [pd_half (e := 1) (e' := 0) (by omega) (by omega) (by omega) (fun i => by
          rw [spread_off (by omega) (by omega) (by omega)]; rfl),
        pd_half (e := 1) (e' := 0) (by omega) (by omega) (by omega) (fun i => by
          rw [Branch.parity_even]
          simp only [spread_off (e := 1) (e' := 0) (by omega) (by omega) (by omega)]
          exact congrFun (mulVec_zero A) i)] at this
      simp only [sub_zero, Branch.parity_odd, spread_at (e := 1) (by omega)] at this
      exact this
  · rintro ⟨hA, hB⟩ x y hxy
    refine ⟨_, _, hE x, hE y, ?_⟩
    rw [NeptuneTrail.activePairs_ofFn, NeptuneTrail.activePairs_ofFn]
    simpa using NeptuneTrail.branch (Branch.norm_of_mds hA) (Branch.norm_of_mds hB) 0 hxy

/-- **C83**, how many matrices have no vanishing minor: at most a fraction `(C(2k, k) - 1) / (q - 1)` of the `k × k` matrices
over a field of `q` elements has one. -/
theorem C83_count [Fintype F] (k : Nat) :
    Nat.card {A : Matrix (Fin k) (Fin k) F // ¬ IsMDS A} * (Fintype.card F - 1) ≤
      ((2 * k).choose k - 1) * Nat.card (Matrix (Fin k) (Fin k) F) := by
  rw [Branch.card_matrix]
  exact Branch.card_not_mds k

/-- What is drawn for the external matrix, and the rest fixed: the number of pairs of blocks that do not give the bounds. -/
theorem C83_draws [Fintype F] {k d rounds_f rounds_p : Nat} (hk : 0 < k) (h2 : k ≠ 2) (h4 : k ≠ 4)
    (hd : d = 3 ∨ d = 5 ∨ d = 7) (heven : rounds_f % 2 = 0) (hfit : rounds_f + rounds_p < 2 ^ 64) (h5 : (5 : F) ≠ 0)
    (rc : List (List F)) (hrc : rc.length = rounds_f + rounds_p) (hrow : ∀ row ∈ rc, row.length = 2 * k)
    (Z : Fin (2 * k) → Nat) (N : Fin (2 * k) → Fˣ) (γ : F) :
    Nat.card {x : Matrix (Fin k) (Fin k) F × Matrix (Fin k) (Fin k) F //
        ¬ ∃ P, NeptuneParams.new dbg (2 * k) d rounds_f rounds_p
            (rc.flatten ++ ((rowsOf x.1).flatten ++ (rowsOf x.2).flatten ++ (afterZeros Z N ++ [γ]))) = some (P, []) ∧
          ManyActive dbg (2 * k) rounds_f rounds_p P} * (Fintype.card F - 1) ≤
      2 * ((2 * k).choose k - 1) * Nat.card (Matrix (Fin k) (Fin k) F × Matrix (Fin k) (Fin k) F) := by
  classical
  have hgood : ∀ x : Matrix (Fin k) (Fin k) F × Matrix (Fin k) (Fin k) F, IsMDS x.1 → IsMDS x.2 →
      ∃ P, NeptuneParams.new dbg (2 * k) d rounds_f rounds_p
            (rc.flatten ++ ((rowsOf x.1).flatten ++ (rowsOf x.2).flatten ++ (afterZeros Z N ++ [γ]))) = some (P, []) ∧
          ManyActive dbg (2 * k) rounds_f rounds_p P := by
    intro x hA hB
    let P : NeptuneParams F :=
      { t := 2 * k, d := d, rounds_f_beginning := rounds_f / 2, rounds_p := rounds_p, rounds_f_end := rounds_f / 2,
        rounds := (rounds_f + rounds_p) % 2 ^ 64, round_constants := rc, m_e := rowsOf (parityMatrix x.1 x.2),
        mu := List.ofFn fun i => (N i : F) - 1, abc := (1, 1, γ), a_ := (1, 3, 4) }
    have hP : NeptuneParams.new dbg (2 * k) d rounds_f rounds_p
        (rc.flatten ++ ((rowsOf x.1).flatten ++ (rowsOf x.2).flatten ++ (afterZeros Z N ++ [γ]))) = some (P, []) := by
      refine C51_constructor_iff.mpr ⟨hd, heven, fun _ => hfit, rfl, rfl, rfl, rfl, rfl, rfl, ?_, hrow, ?_, rfl, _,
        afterZeros Z N, γ, rfl, rfl, ?_, afterZeros_last Z N, Or.inr (Or.inr ⟨h2, h4, x.1, x.2, rfl, rfl⟩)⟩
      · rw [Nat.mod_eq_of_lt hfit]; exact hrc
      · simp [P]
      · rw [afterZeros_filter, List.map_ofFn]
        congr 1
        funext i
        simp
    obtain ⟨e1, e2⟩ := blocks_of_parity (M := P.m_e) (A := x.1) (B := x.2) rfl
    exact ⟨P, hP, C83_many_active hk hP hfit h5 (e1 ▸ hA) (e2 ▸ hB)⟩
  have hc := Branch.card_not_mds (F := F) k
  have hM := Branch.card_matrix (F := F) k
  rw [Nat.card_prod, hM]
  have hinj : Nat.card {x : Matrix (Fin k) (Fin k) F × Matrix (Fin k) (Fin k) F //
        ¬ ∃ P, NeptuneParams.new dbg (2 * k) d rounds_f rounds_p
            (rc.flatten ++ ((rowsOf x.1).flatten ++ (rowsOf x.2).flatten ++ (afterZeros Z N ++ [γ]))) = some (P, []) ∧
          ManyActive dbg (2 * k) rounds_f rounds_p P} ≤
      Nat.card ({A : Matrix (Fin k) (Fin k) F // ¬ IsMDS A} × Matrix (Fin k) (Fin k) F ⊕
        Matrix (Fin k) (Fin k) F × {A : Matrix (Fin k) (Fin k) F // ¬ IsMDS A}) := by
    refine Nat.card_le_card_of_injective (fun x => if h : IsMDS x.1.1 then
      Sum.inr (x.1.1, ⟨x.1.2, fun h' => x.2 (hgood x.1 h h')⟩) else Sum.inl (⟨x.1.1, h⟩, x.1.2)) ?_
    intro x y hxy
    apply Subtype.ext
    apply Prod.ext
    all_goals
      dsimp only at hxy
      split at hxy <;> split at hxy
      · have := congrArg Prod.fst (Sum.inr.inj hxy)
        have h' := congrArg (fun z => z.2.1) (Sum.inr.inj hxy)
        assumption
      · cases hxy
      · cases hxy
      · have := congrArg (fun z => z.1.1) (Sum.inl.inj hxy)
        have h' := congrArg (fun z => z.2) (Sum.inl.inj hxy)
        assumption
  rw [Nat.card_sum, Nat.card_prod, Nat.card_prod, hM] at hinj
  refine (Nat.mul_le_mul_right _ hinj).trans ?_
  generalize Nat.card {A : Matrix (Fin k) (Fin k) F // ¬ IsMDS A} = b at *
  generalize Fintype.card F ^ (k * k) = T at *
  generalize Fintype.card F - 1 = q at *
  generalize (2 * k).choose k - 1 = c at *
  calc (b * T + T * b) * q = 2 * (b * q) * T := by ring
    _ ≤ 2 * (c * T) * T := Nat.mul_le_mul_right _ (Nat.mul_le_mul_left _ hc)
    _ = 2 * c * (T * T) := by ring

end

/-- **C83**, the shipped Neptune parameter sets of widths other than 4 and 8: whatever else was drawn, at most a fraction
`2 (C(t, t/2) - 1) / (p - 1)` of the blocks of the external matrix gives parameters for which the bounds of C73 fail. -/
theorem C83_shipped (S : Shape) (hS : S ∈ Instances.neptune) (n4 : S.t ≠ 4) (n8 : S.t ≠ 8) [Fact S.modulus.Prime] (dbg : Bool)
    (rc : List (List (ZMod S.modulus))) (hrc : rc.length = S.rounds_f + S.rounds_p) (hrow : ∀ row ∈ rc, row.length = S.t)
    (Z : Fin S.t → Nat) (N : Fin S.t → (ZMod S.modulus)ˣ) (γ : ZMod S.modulus) :
    Nat.card {x : Matrix (Fin (S.t / 2)) (Fin (S.t / 2)) (ZMod S.modulus) ×
          Matrix (Fin (S.t / 2)) (Fin (S.t / 2)) (ZMod S.modulus) //
        ¬ ∃ P, NeptuneParams.new dbg S.t S.d S.rounds_f S.rounds_p
            (rc.flatten ++ ((rowsOf x.1).flatten ++ (rowsOf x.2).flatten ++ (afterZeros Z N ++ [γ]))) = some (P, []) ∧
          ManyActive dbg S.t S.rounds_f S.rounds_p P} * (S.modulus - 1) ≤
      2 * (S.t.choose (S.t / 2) - 1) * Nat.card (Matrix (Fin (S.t / 2)) (Fin (S.t / 2)) (ZMod S.modulus) ×
          Matrix (Fin (S.t / 2)) (Fin (S.t / 2)) (ZMod S.modulus)) := by
  obtain ⟨-, hd, ht2, ht, heven, hfit⟩ := neptune_good S hS
  have hc := List.all_eq_true.mp shapes_checked S (List.mem_append_left _ hS)
  simp only [Bool.and_eq_true, bne_iff_ne, beq_iff_eq, List.contains_iff_mem] at hc
  have hle : 2013265921 ≤ S.modulus := Branch.declared_le hc.1.1
  have h5 : (5 : ZMod S.modulus) ≠ 0 := by
    intro hz
    have hz : ((5 : Nat) : ZMod S.modulus) = 0 := by exact_mod_cast hz
    rw [ZMod.natCast_eq_zero_iff] at hz
    have := Nat.le_of_dvd (by omega) hz
    omega
  have hcard := ZMod.card S.modulus
  obtain ⟨k, hk⟩ : ∃ k, S.t = 2 * k := ⟨S.t / 2, by omega⟩
  generalize S.t = t at *
  subst hk
  have hk2 : 2 * k / 2 = k := by omega
  have := C83_draws (dbg := dbg) (k := k) (by omega) (by omega) (by omega) hd heven hfit h5 rc hrc hrow Z N γ
  rw [hcard] at this
  rw [hk2]
  exact this

/-- The fractions for the shipped shapes with drawn blocks: width, `2 (C(t, t/2) - 1)`, and how many times that fits into
`p - 1`. -/
example : (Instances.neptune.filter fun S => S.t ≠ 4 ∧ S.t ≠ 8).map (fun S =>
    (S.t, 2 * (S.t.choose (S.t / 2) - 1), (S.modulus - 1) / (2 * (S.t.choose (S.t / 2) - 1)))) =
      [(12, 1846, 9992819105858388), (16, 25738, 716712412363609), (20, 369510, 49922178207395), (16, 25738, 78221),
        (24, 5408310, 372)] := by decide +kernel

local instance fact7 : Fact (Nat.Prime 7) := ⟨by decide⟩

/-- A draw of width 6 over the field of seven elements that meets the hypotheses of `C83_many_active`. -/
example : ∃ P, NeptuneParams.new dbg (2 * 3) 5 4 2 (List.replicate 36 3 ++ [2, 5, 4, 3, 2, 5, 6, 3, 2, 2, 5, 4, 3, 2, 5, 6, 3, 2] ++
      [0, 2, 3, 0, 2, 5, 6, 3, 4] : List (ZMod 7)) = some (P, []) ∧ ManyActive dbg (2 * 3) 4 2 P := by
  refine ⟨_, rfl, ?_⟩
  refine C83_many_active (k := 3) (d := 5) (by decide) (s := List.replicate 36 3 ++
    [2, 5, 4, 3, 2, 5, 6, 3, 2, 2, 5, 4, 3, 2, 5, 6, 3, 2] ++ [0, 2, 3, 0, 2, 5, 6, 3, 4]) (r := []) rfl (by decide) (by decide) ?_ ?_
  · exact Branch.mds_of_norm (by unfold Branch.Norm; decide +kernel)
  · exact Branch.mds_of_norm (by unfold Branch.Norm; decide +kernel)

/-- A small field that meets the hypotheses of `C83_draws`, width 6. -/
example (Z : Fin (2 * 3) → Nat) (N : Fin (2 * 3) → (ZMod 7)ˣ) :=
  C83_draws (F := ZMod 7) (dbg := dbg) (k := 3) (d := 5) (rounds_f := 4) (rounds_p := 2) (by decide) (by decide) (by decide)
    (Or.inr (Or.inl rfl)) rfl (by decide) (by decide) (List.replicate 6 (List.replicate 6 1)) rfl (by decide) Z N 7

end ZkHash
