import Verif.Proofs.Trail
import Verif.Theorems.NeptuneBranch
import Verif.Theorems.ShippedOther

set_option autoImplicit false

/-!
# S-boxes with different inputs in Neptune: C73
-/

namespace ZkHash

open Spec Matrix

variable {dbg : Bool}

namespace NeptuneTrail

variable {F : Type} [Field F] [DecidableEq F]

def pd {k : Nat} (x y : Fin (2 * k) → F) : Nat :=
  (Finset.univ.filter fun i : Fin k => x ⟨2 * i, by omega⟩ ≠ y ⟨2 * i, by omega⟩ ∨
    x ⟨2 * i + 1, by omega⟩ ≠ y ⟨2 * i + 1, by omega⟩).card

theorem countP_range_fin {k : Nat} (p : Nat → Bool) :
    (List.range k).countP p = (Finset.univ.filter fun i : Fin k => p i = true).card := by
  rw [Finset.card_filter, Fin.sum_univ_eq_sum_range (fun i => if p i = true then 1 else 0) k]
  induction k with
  | zero => simp
  | succ k ih =>
    rw [List.range_succ, List.countP_append, ih, Finset.sum_range_succ]
    simp [List.countP_cons]

theorem activePairs_ofFn {k : Nat} (x y : Fin (2 * k) → F) : activePairs (List.ofFn x) (List.ofFn y) = pd x y := by
  unfold activePairs pd
  rw [List.length_ofFn, Nat.mul_div_cancel_left k (by omega), countP_range_fin]
  congr 1
  apply Finset.filter_congr
  intro i _
  have h1 : 2 * i.val < 2 * k := by omega
  have h2 : 2 * i.val + 1 < 2 * k := by omega
  simp [h1, h2]

theorem pd_self {k : Nat} (x : Fin (2 * k) → F) : pd x x = 0 := by simp [pd]

theorem pd_pos {k : Nat} {x y : Fin (2 * k) → F} (h : x ≠ y) : 1 ≤ pd x y := by
  obtain ⟨i, hi⟩ := Function.ne_iff.mp h
  refine Finset.card_pos.mpr ⟨⟨i / 2, by omega⟩, ?_⟩
  rw [Finset.mem_filter]
  refine ⟨Finset.mem_univ _, ?_⟩
  by_cases hp : i.val % 2 = 0
  · left
    have e : (⟨2 * (i.val / 2), by omega⟩ : Fin (2 * k)) = i := Fin.ext (by simp; omega)
    simpa only [e] using hi
  · right
    have e : (⟨2 * (i.val / 2) + 1, by omega⟩ : Fin (2 * k)) = i := Fin.ext (by simp; omega)
    simpa only [e] using hi

theorem pd_onPairs {k : Nat} {g : F × F → F × F} (hg : Function.Injective g) (x y : Fin (2 * k) → F) :
    pd (onPairs g x) (onPairs g y) = pd x y := by
  unfold pd
  congr 1
  apply Finset.filter_congr
  intro i _
  have e0 : (2 * i.val) / 2 = i.val := by omega
  have e1 : (2 * i.val + 1) / 2 = i.val := by omega
  have e2 : (2 * i.val + 1) % 2 ≠ 0 := by omega
  simp only [onPairs, e0, e1, Nat.mul_mod_right, if_true, if_neg e2]
  rw [← not_and_or, ← not_and_or, ← Prod.ext_iff, hg.eq_iff, Prod.ext_iff]

theorem half_pd {k : Nat} (e : Nat) (he : e < 2) (x y : Fin (2 * k) → F) :
    hammingNorm (fun i : Fin k => (x - y) ⟨2 * i + e, by omega⟩) ≤ pd x y := by
  refine Finset.card_le_card fun i hi => ?_
  rw [Finset.mem_filter] at hi ⊢
  refine ⟨hi.1, ?_⟩
  have hi := hi.2
  obtain rfl | rfl : e = 0 ∨ e = 1 := by omega
  · exact Or.inl fun h => hi (by simp only [Pi.sub_apply, Nat.add_zero, h, sub_self])
  · exact Or.inr fun h => hi (by simp only [Pi.sub_apply, h, sub_self])

theorem branch {k b : Nat} {A B : Matrix (Fin k) (Fin k) F} (hA : Branch.Norm A b) (hB : Branch.Norm B b)
    {x y : Fin (2 * k) → F} (c : Fin (2 * k) → F) (h : x ≠ y) :
    b ≤ pd x y + pd (parityMatrix A B *ᵥ x + c) (parityMatrix A B *ᵥ y + c) := by
  have hsub : (parityMatrix A B *ᵥ x + c) - (parityMatrix A B *ᵥ y + c) = parityMatrix A B *ᵥ (x - y) := by
    rw [mulVec_sub]; abel
  by_cases h0 : (fun i : Fin k => (x - y) ⟨2 * i + 0, by omega⟩) = 0
  · have h1 : (fun i : Fin k => (x - y) ⟨2 * i + 1, by omega⟩) ≠ 0 := by
      intro h1
      apply h
      rw [← sub_eq_zero]
      funext i
      have hi := i.isLt
      by_cases hp : i.val % 2 = 0
      · have := congrFun h0 ⟨i / 2, by omega⟩
        simp only [Pi.zero_apply] at this ⊢
        rw [← this]
        exact congrArg (x - y) (Fin.ext (by dsimp only; omega))
      · have := congrFun h1 ⟨i / 2, by omega⟩
        simp only [Pi.zero_apply] at this ⊢
        rw [← this]
        exact congrArg (x - y) (Fin.ext (by dsimp only; omega))
    refine (hB _ h1).trans (Nat.add_le_add (half_pd 1 (by decide) x y) ?_)
    refine le_trans (le_of_eq ?_) (half_pd 1 (by decide) _ _)
    rw [hsub]
    simp only [Branch.parity_odd]
  · refine (hA _ h0).trans (Nat.add_le_add (half_pd 0 (by decide) x y) ?_)
    refine le_trans (le_of_eq ?_) (half_pd 0 (by decide) _ _)
    rw [hsub]
    simp only [Branch.parity_even]

theorem branch_ext {k b : Nat} {A B : Matrix (Fin k) (Fin k) F} (hA : Branch.Norm A b) (hB : Branch.Norm B b)
    (h5 : (5 : F) ≠ 0) (γ : F) (c : Fin (2 * k) → F) {x y : Fin (2 * k) → F} (h : x ≠ y) :
    b ≤ pd x y + pd (neptuneExtRound (parityMatrix A B) γ c x) (neptuneExtRound (parityMatrix A B) γ c y) := by
  have hinj := ((Neptune.neptunePair_bijective_iff γ).mpr h5).1
  rw [← pd_onPairs hinj x y]
  refine branch hA hB c fun he => ?_
  have := pd_onPairs hinj x y
  have h1 := pd_pos h
  rw [he, pd_self] at this
  omega

theorem parity_inj {k : Nat} {A B A' B' : Matrix (Fin k) (Fin k) F} (h : parityMatrix A B = parityMatrix A' B') :
    A = A' ∧ B = B' := by
  constructor
  · ext i j
    have := congrFun (congrFun h ⟨2 * i, by omega⟩) ⟨2 * j, by omega⟩
    simpa [parityMatrix] using this
  · ext i j
    have := congrFun (congrFun h ⟨2 * i + 1, by omega⟩) ⟨2 * j + 1, by omega⟩
    simpa [parityMatrix, Nat.add_mod, Nat.add_div] using this

/-- The sequences, for any width with good blocks. -/
theorem sequences {k d rounds_f rounds_p b : Nat} (hk : 0 < k) {P : NeptuneParams F}
    {A B : Matrix (Fin k) (Fin k) F} (hP : NeptuneParams.Made k d rounds_f rounds_p P A B)
    (h4 : k = 2 → P.m_e = rowsOf (neptuneExt4 (F := F))) (h8 : k = 4 → P.m_e = rowsOf (neptuneExt8 (F := F)))
    (hfit : rounds_f + rounds_p < 2 ^ 64) (hA : Branch.Norm A b) (hB : Branch.Norm B b) (h5 : (5 : F) ≠ 0)
    (hdet : (parityMatrix A B).det ≠ 0) :
    ∃ σ : (Fin (2 * k) → F) → Nat → Fin (2 * k) → F,
      (∀ x, Neptune.externalMatmul P (List.ofFn x) = some (List.ofFn (σ x 0))) ∧
      (∀ x, Trail (Neptune.externalRound P) (Neptune.internalRound P) (rounds_f / 2) rounds_p (rounds_f + rounds_p)
        fun r => List.ofFn (σ x r)) ∧
      (∀ x, Neptune.permutation dbg P (List.ofFn x) = some (List.ofFn (σ x (rounds_f + rounds_p)))) ∧
      ∀ x y, x ≠ y →
        (∀ r < rounds_f + rounds_p, (r < rounds_f / 2 ∨ rounds_f / 2 + rounds_p ≤ r) → σ x r ≠ σ y r →
          b ≤ pd (σ x r) (σ y r) + pd (σ x (r + 1)) (σ y (r + 1))) ∧
        (∀ r ≤ rounds_f / 2, σ x r ≠ σ y r) ∧
        (σ x (rounds_f + rounds_p) ≠ σ y (rounds_f + rounds_p) → ∀ r ≤ rounds_f + rounds_p, σ x r ≠ σ y r) := by
  classical
  have hd : P.d = 3 ∨ P.d = 5 ∨ P.d = 7 := by rw [hP.d_eq]; exact hP.degree
  have heven := hP.even
  have hrounds : P.rounds = rounds_f + rounds_p := by rw [hP.rounds_eq, Nat.mod_eq_of_lt hfit]
  have hlen : P.round_constants.length = rounds_f + rounds_p := by rw [hP.rc_len, Nat.mod_eq_of_lt hfit]
  have hext : ∀ r, r < rounds_f + rounds_p → ∀ y : Fin (2 * k) → F, Neptune.externalRound P (List.ofFn y) r =
      some (List.ofFn (neptuneExtRound (parityMatrix A B) P.abc.2.2
        (fun i : Fin (2 * k) => tab P.round_constants r i) y)) := by
    intro r hr y
    obtain ⟨row, h1, h2, h3⟩ := Neptune.rc_get hlen hP.rc_row hr
    unfold Neptune.externalRound
    rw [Neptune.externalSbox_ofFn]
    simp only [Option.bind_eq_bind, Option.bind_some]
    rw [Neptune.externalMatmul_ofFn P hP.t_eq A B hP.m_e_eq h4 h8, h1]
    simp only [Option.bind_some, Option.pure_def]
    rw [Neptune.addRc_ofFn _ _ h2]
    simp only [h3]
    rfl
  have hint : ∀ r, r < rounds_f + rounds_p → ∀ y : Fin (2 * k) → F, Neptune.internalRound P (List.ofFn y) r =
      some (List.ofFn (neptuneIntRound (neptuneInternal (2 * k) (vec P.mu)) d
        (fun i : Fin (2 * k) => tab P.round_constants r i) y)) := by
    intro r hr y
    obtain ⟨row, h1, h2, h3⟩ := Neptune.rc_get hlen hP.rc_row hr
    unfold Neptune.internalRound
    rw [Neptune.internalSbox_ofFn (by omega) hd]
    simp only [Option.bind_eq_bind, Option.bind_some]
    rw [Neptune.internalMatmul_ofFn (by omega) P hP.mu_len, h1]
    simp only [Option.bind_some, Option.pure_def]
    rw [Neptune.addRc_ofFn _ _ h2, hP.d_eq]
    simp only [h3]
    rfl
  obtain ⟨rb, hrb⟩ : ∃ rb, rounds_f = rb + rb := ⟨rounds_f / 2, by omega⟩
  have erb : rounds_f / 2 = rb := by omega
  have eR : rounds_f + rounds_p = rb + rounds_p + rb := by omega
  obtain ⟨g, hg⟩ : ∃ g : Nat → (Fin (2 * k) → F) → Fin (2 * k) → F, g = fun r =>
      if rb ≤ r ∧ r < rb + rounds_p then
        neptuneIntRound (neptuneInternal (2 * k) (vec P.mu)) d (fun i : Fin (2 * k) => tab P.round_constants r i)
      else neptuneExtRound (parityMatrix A B) P.abc.2.2 (fun i : Fin (2 * k) => tab P.round_constants r i) := ⟨_, rfl⟩
  have gext : ∀ r, (r < rb ∨ rb + rounds_p ≤ r) → g r =
      neptuneExtRound (parityMatrix A B) P.abc.2.2 (fun i : Fin (2 * k) => tab P.round_constants r i) := by
    intro r hr
    rw [hg]
    exact if_neg (by omega)
  have gint : ∀ r, rb ≤ r → r < rb + rounds_p → g r =
      neptuneIntRound (neptuneInternal (2 * k) (vec P.mu)) d (fun i : Fin (2 * k) => tab P.round_constants r i) := by
    intro r h1 h2
    rw [hg]
    exact if_pos ⟨h1, h2⟩
  clear hg
  rw [eR] at hext hint
  rw [erb, eR]
  refine ⟨fun x r => rounds g 0 r (parityMatrix A B *ᵥ x), fun x => ?_, fun x => ⟨fun r hr hc => ?_, fun r hr h1 h2 => ?_⟩,
    fun x => ?_, fun x y hxy => ⟨fun r hr hc hne => ?_, ?_, fun hne => Trail.rounds_ne g hne⟩⟩
  · exact Neptune.externalMatmul_ofFn P hP.t_eq A B hP.m_e_eq h4 h8 x
  · rw [hext r hr]
    simp only [rounds, Nat.zero_add, gext r hc]
  · rw [hint r hr]
    simp only [rounds, Nat.zero_add, gint r h1 h2]
  · rw [Neptune.permutation_ofFn hk hP h4 h8 hfit, erb]
    congr 2
    unfold neptune
    dsimp only
    rw [Trail.rounds_add g 0 (rb + rounds_p) _ rb, Trail.rounds_add g 0 rb _ rounds_p, Nat.zero_add, Nat.zero_add]
    have cong : ∀ (g g' : Nat → (Fin (2 * k) → F) → Fin (2 * k) → F) (a n : Nat), (∀ r, a ≤ r → r < a + n → g r = g' r) →
        ∀ z, rounds g a n z = rounds g' a n z := by
      intro g g' a n
      induction n with
      | zero => intro _ z; rfl
      | succ n ih =>
        intro hh z
        simp only [rounds]
        rw [ih (fun r h1 h2 => hh r h1 (by omega)), hh (a + n) (by omega) (by omega)]
    rw [cong g _ 0 rb (fun r _ h2 => gext r (by omega)), cong g _ rb rounds_p (fun r h1 h2 => gint r h1 h2),
      cong g _ (rb + rounds_p) rb (fun r h1 h2 => gext r (by omega))]
  · have := branch_ext hA hB h5 P.abc.2.2 (fun i : Fin (2 * k) => tab P.round_constants r i) hne
    simpa only [rounds, Nat.zero_add, gext r hc] using this
  · have hinjM : Function.Injective (parityMatrix A B).mulVec := by
      intro u v huv
      by_contra hc
      have hu : IsUnit (parityMatrix A B).det := isUnit_iff_ne_zero.mpr hdet
      have := congrArg ((parityMatrix A B)⁻¹.mulVec) huv
      rw [mulVec_mulVec, mulVec_mulVec, nonsing_inv_mul _ hu, one_mulVec, one_mulVec] at this
      exact hc this
    have hinj := ((Neptune.neptunePair_bijective_iff P.abc.2.2).mpr h5).1
    intro r
    induction r with
    | zero => intro _ he; exact hxy (hinjM he)
    | succ r ih =>
      intro hr he
      refine ih (by omega) ?_
      simp only [rounds, Nat.zero_add, gext r (Or.inl (by omega)), neptuneExtRound] at he
      have h1 := hinjM (add_right_cancel he)
      by_contra hne
      have h2 := pd_onPairs hinj (rounds g 0 r (parityMatrix A B *ᵥ x)) (rounds g 0 r (parityMatrix A B *ᵥ y))
      have h3 := pd_pos hne
      rw [h1, pd_self] at h2
      beta_reduce at h3
      omega

end NeptuneTrail

/-- **C73.** Take a shipped Neptune parameter set of width `t = 4` or `t = 8`, whatever was drawn, and
`rb = rounds_f / 2`. For any two different inputs there are state sequences of the two computations such that, in any
external round followed by another external round, the S-boxes of the two rounds with different inputs are at least
`t / 2 + 1` in number if the states differ; the first `rb` rounds have at least `(rb / 2) * (t / 2 + 1) + rb % 2` of them;
and if the two results are different, so do the last `rb` rounds. -/
theorem C73_neptune (S : Shape) (hS : S ∈ Instances.neptune) (h48 : S.t = 4 ∨ S.t = 8) [Fact S.modulus.Prime]
    {str rest : List (ZMod S.modulus)} {P : NeptuneParams (ZMod S.modulus)}
    (h : NeptuneParams.new dbg S.t S.d S.rounds_f S.rounds_p str = some (P, rest)) :
    ∀ x y : Fin S.t → ZMod S.modulus, x ≠ y → ∃ s s' : Nat → List (ZMod S.modulus),
      Neptune.externalMatmul P (List.ofFn x) = some (s 0) ∧
      Neptune.externalMatmul P (List.ofFn y) = some (s' 0) ∧
      Trail (Neptune.externalRound P) (Neptune.internalRound P) (S.rounds_f / 2) S.rounds_p (S.rounds_f + S.rounds_p) s ∧
      Trail (Neptune.externalRound P) (Neptune.internalRound P) (S.rounds_f / 2) S.rounds_p (S.rounds_f + S.rounds_p) s' ∧
      Neptune.permutation dbg P (List.ofFn x) = some (s (S.rounds_f + S.rounds_p)) ∧
      Neptune.permutation dbg P (List.ofFn y) = some (s' (S.rounds_f + S.rounds_p)) ∧
      (∀ r < S.rounds_f + S.rounds_p, (r < S.rounds_f / 2 ∨ S.rounds_f / 2 + S.rounds_p ≤ r) → s r ≠ s' r →
        S.t / 2 + 1 ≤ activePairs (s r) (s' r) + activePairs (s (r + 1)) (s' (r + 1))) ∧
      (S.rounds_f / 2 / 2 * (S.t / 2 + 1) + S.rounds_f / 2 % 2 ≤
        ∑ r ∈ Finset.range (S.rounds_f / 2), activePairs (s r) (s' r)) ∧
      (Neptune.permutation dbg P (List.ofFn x) ≠ Neptune.permutation dbg P (List.ofFn y) →
        S.rounds_f / 2 / 2 * (S.t / 2 + 1) + S.rounds_f / 2 % 2 ≤
          ∑ i ∈ Finset.range (S.rounds_f / 2),
            activePairs (s (S.rounds_f / 2 + S.rounds_p + i)) (s' (S.rounds_f / 2 + S.rounds_p + i))) := by
  have hc := List.all_eq_true.mp shapes_checked S (List.mem_append_left _ hS)
  simp only [Bool.and_eq_true, bne_iff_ne, beq_iff_eq, List.contains_iff_mem] at hc
  have hle : 2013265921 ≤ S.modulus := Branch.declared_le hc.1.1
  obtain ⟨-, -, -, -, -, hfit⟩ := neptune_good S hS
  have small : ∀ n : Nat, 0 < n → n < 2013265921 → ((n : Nat) : ZMod S.modulus) ≠ 0 := by
    intro n h0 h1 hz
    have := Nat.le_of_dvd h0 ((ZMod.natCast_eq_zero_iff _ _).mp hz)
    omega
  have h5 : (5 : ZMod S.modulus) ≠ 0 := by exact_mod_cast small 5 (by norm_num) (by norm_num)
  obtain ⟨k, hk, hkk⟩ : ∃ k, S.t = 2 * k ∧ (k = 2 ∨ k = 4) := ⟨S.t / 2, by omega, by omega⟩
  obtain ⟨t, d, rf, rp, he⟩ : ∃ t d rf rp, S.t = t ∧ S.d = d ∧ S.rounds_f = rf ∧ S.rounds_p = rp := ⟨_, _, _, _, rfl, rfl, rfl, rfl⟩
  obtain ⟨e1, e2, e3, e4⟩ := he
  rw [e1, e2, e3, e4] at h
  rw [e3, e4] at hfit
  rw [e1] at hk
  rw [e1, e3, e4]
  subst hk
  obtain ⟨A, B, hm, h4, h8⟩ := NeptuneParams.ext_of_new h
  have hgood : Branch.Norm A (k + 1) ∧ Branch.Norm B (k + 1) ∧ (parityMatrix A B).det ≠ 0 := by
    rcases hkk with rfl | rfl
    · obtain ⟨rfl, rfl⟩ := NeptuneTrail.parity_inj (rowsOf_injective ((h4 rfl).symm.trans hm.m_e_eq))
      refine ⟨Branch.norm_4A hle, Branch.norm_4B hle, ?_⟩
      rw [show parityMatrix !![2, 1; 1, 2] !![1, 2; 2, 1] = neptuneExt4 (F := ZMod S.modulus) from rfl, Neptune.ext4_det, Ne, neg_eq_zero]
      exact_mod_cast small 9 (by norm_num) (by norm_num)
    · obtain ⟨rfl, rfl⟩ := NeptuneTrail.parity_inj (rowsOf_injective ((h8 rfl).symm.trans hm.m_e_eq))
      refine ⟨Branch.norm_8A hle, Branch.norm_8B hle, ?_⟩
      have := Neptune.ext8_det (F := ZMod S.modulus)
      unfold neptuneExt8 at this
      rw [this, Ne, neg_eq_zero]
      exact_mod_cast small 1225 (by norm_num) (by norm_num)
  obtain ⟨hA, hB, hdet⟩ := hgood
  obtain ⟨σ, g1, g2, g3, g4⟩ := NeptuneTrail.sequences (dbg := dbg) (by omega) hm h4 h8 hfit hA hB h5 hdet
  intro x y hxy
  obtain ⟨g5, g6, g7⟩ := g4 x y hxy
  have hev := hm.even
  refine ⟨fun r => List.ofFn (σ x r), fun r => List.ofFn (σ y r), g1 x, g1 y, g2 x, g2 y, g3 x, g3 y, ?_, ?_, fun hne => ?_⟩
  · intro r hr hc hne
    simp only [NeptuneTrail.activePairs_ofFn]
    rw [Nat.mul_div_cancel_left k (by omega)]
    exact g5 r hr hc fun he => hne (by simp only [he])
  all_goals
    simp only [NeptuneTrail.activePairs_ofFn]
    rw [Nat.mul_div_cancel_left k (by omega)]
  · have := Trail.pairs (fun r => if r < rf / 2 then NeptuneTrail.pd (σ x r) (σ y r) else 1) (k + 1) (fun r => by
      split
      · exact NeptuneTrail.pd_pos (g6 r (by omega))
      · exact le_rfl) (rf / 2) 0 (fun r h1 h2 => by
        rw [if_pos (by omega), if_pos (by omega)]
        exact g5 r (by omega) (by omega) (g6 r (by omega)))
    refine this.trans (le_of_eq (Finset.sum_congr rfl fun i hi => ?_))
    have hi := Finset.mem_range.mp hi
    rw [Nat.zero_add, if_pos hi]
  · have g7 := g7 fun he => hne (by rw [g3, g3, he])
    have := Trail.pairs (fun r => if r < rf + rp then NeptuneTrail.pd (σ x r) (σ y r) else 1) (k + 1) (fun r => by
      split
      · exact NeptuneTrail.pd_pos (g7 r (by omega))
      · exact le_rfl) (rf / 2) (rf / 2 + rp) (fun r h1 h2 => by
        rw [if_pos (by omega), if_pos (by omega)]
        exact g5 r (by omega) (by omega) (g7 r (by omega)))
    refine this.trans (le_of_eq (Finset.sum_congr rfl fun i hi => ?_))
    have hi := Finset.mem_range.mp hi
    rw [if_pos (by omega)]

/-- The bounds at each end for the shipped sets of widths 4 and 8: widths, bound. -/
example : (Instances.neptune.filter fun S => S.t = 4 ∨ S.t = 8).map (fun S =>
    (S.t, S.rounds_f / 2 / 2 * (S.t / 2 + 1) + S.rounds_f / 2 % 2)) =
      [(4, 4), (4, 4), (8, 6), (8, 6), (4, 4), (8, 6), (4, 4)] := by decide +kernel

/-- A drawn parameter set of a shipped shape, all draws equal to 1. -/
example : ∃ S ∈ Instances.neptune, (S.t = 4 ∨ S.t = 8) ∧ ∃ (str : List (ZMod S.modulus)) (P : NeptuneParams (ZMod S.modulus)),
    NeptuneParams.new dbg S.t S.d S.rounds_f S.rounds_p str = some (P, []) := by
  have hh : ∃ S ∈ Instances.neptune, S.t = 4 ∧ S.d = 5 ∧ S.rounds_f = 6 ∧ S.rounds_p = 68 := by decide +kernel
  obtain ⟨S, hS, h1, h2, h3, h4⟩ := hh
  have : Fact S.modulus.Prime := ⟨by
    have hc := List.all_eq_true.mp shapes_checked S (List.mem_append_left _ hS)
    simp only [Bool.and_eq_true, bne_iff_ne, beq_iff_eq, List.contains_iff_mem] at hc
    exact declared_prime hc.1.1⟩
  refine ⟨S, hS, Or.inl h1, ?_⟩
  rw [h1, h2, h3, h4]
  obtain ⟨P, hP, -⟩ := NeptuneParams.new_ones (F := ZMod S.modulus) (t := 4) (d := 5) (rounds_f := 6)
    (rounds_p := 68) (by omega) (by omega) (by omega) (uadd_fits dbg (by norm_num))
  exact ⟨_, P, hP⟩

end ZkHash
