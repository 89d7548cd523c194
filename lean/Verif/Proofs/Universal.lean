import Verif.Theorems.GmimcTrail
import Mathlib.Algebra.Polynomial.Roots
import Mathlib.Algebra.Polynomial.Coeff
import Mathlib.Algebra.BigOperators.Group.Finset.Basic

set_option autoImplicit false

/-!
# Counting the constants for which two computations end with a given difference
-/

namespace ZkHash.Universal

open Spec Polynomial

variable {F : Type} [Field F] [Fintype F] [DecidableEq F]

/-- A difference of two `d`-th powers of a shifted argument takes every value at most `d - 1` times. -/
theorem sbox_count {d : Nat} (hd : 2 ≤ d) (hdF : (d : F) ≠ 0) {u u' : F} (hu : u ≠ u') (w : F) :
    (Finset.univ.filter fun k : F => (u + k) ^ d - (u' + k) ^ d = w).card ≤ d - 1 := by
  obtain ⟨p, hp⟩ : ∃ p : F[X], p = (X + C u) ^ d - (X + C u') ^ d - C w := ⟨_, rfl⟩
  have hcoeff : ∀ N, p.coeff N = u ^ (d - N) * (d.choose N : F) - u' ^ (d - N) * (d.choose N : F) -
      if N = 0 then w else 0 := by
    intro N
    rw [hp, coeff_sub, coeff_sub, coeff_X_add_C_pow, coeff_X_add_C_pow, coeff_C]
  have hne : p ≠ 0 := by
    intro h
    have := hcoeff (d - 1)
    rw [h, coeff_zero, if_neg (by omega), show d - (d - 1) = 1 by omega, pow_one, pow_one,
      Nat.choose_symm (by omega : 1 ≤ d), Nat.choose_one_right, sub_zero, ← sub_mul] at this
    rcases mul_eq_zero.mp this.symm with h | h
    · exact hu (sub_eq_zero.mp h)
    · exact hdF h
  have hdeg : p.natDegree ≤ d - 1 := by
    rw [natDegree_le_iff_coeff_eq_zero]
    intro N hN
    rw [hcoeff, if_neg (by omega), show d - N = 0 by omega]
    ring
  calc (Finset.univ.filter fun k : F => (u + k) ^ d - (u' + k) ^ d = w).card
      ≤ p.roots.toFinset.card := by
        refine Finset.card_le_card fun k hk => ?_
        rw [Finset.mem_filter] at hk
        rw [Multiset.mem_toFinset, mem_roots hne, IsRoot.def, hp]
        simp only [eval_sub, eval_pow, eval_add, eval_X, eval_C]
        rw [← hk.2]
        ring
    _ ≤ p.roots.card := Multiset.toFinset_card_le _
    _ ≤ p.natDegree := p.card_roots'
    _ ≤ d - 1 := hdeg

/-- If, whatever the other constants, at most `m` values of the constant at `r` make `E` true, then `E` is true for at
most `m` in `q` of all constants. -/
theorem count_update {ι : Type} [Fintype ι] [DecidableEq ι] (r : ι) (E : (ι → F) → Prop) [DecidablePred E] (m : Nat)
    (h : ∀ c, (Finset.univ.filter fun k : F => E (Function.update c r k)).card ≤ m) :
    (Finset.univ.filter E).card * Fintype.card F ≤ m * Fintype.card F ^ Fintype.card ι := by
  have hinv : Function.Involutive
      (fun p : (ι → F) × F => ((Function.update p.1 r p.2, p.1 r) : (ι → F) × F)) := by
    rintro ⟨c, k⟩
    simp
  have e1 : (Finset.univ.filter E).card * Fintype.card F = ∑ p : (ι → F) × F, if E p.1 then 1 else 0 := by
    rw [Fintype.sum_prod_type, Finset.card_filter, Finset.sum_mul]
    refine Finset.sum_congr rfl fun c _ => ?_
    show _ = ∑ _k : F, if E c then 1 else 0
    rw [Finset.sum_const, Finset.card_univ, smul_eq_mul, mul_comm]
  have e2 : (∑ p : (ι → F) × F, if E p.1 then 1 else 0) =
      ∑ p : (ι → F) × F, if E (Function.update p.1 r p.2) then 1 else 0 :=
    (Equiv.sum_comp hinv.toPerm (fun p : (ι → F) × F => if E p.1 then 1 else 0)).symm
  rw [e1, e2, Fintype.sum_prod_type]
  calc (∑ c : ι → F, ∑ k : F, if E (Function.update c r k) then 1 else 0)
      ≤ ∑ _c : ι → F, m := by
        refine Finset.sum_le_sum fun c _ => ?_
        rw [← Finset.card_filter]
        exact h c
    _ = m * Fintype.card F ^ Fintype.card ι := by
        rw [Finset.sum_const, Finset.card_univ, Fintype.card_fun, smul_eq_mul, mul_comm]

/-- The event that the S-box of constant `r` has different inputs and the difference of its outputs is a given one. -/
theorem event_count {ι : Type} [Fintype ι] [DecidableEq ι] {d : Nat} (hd : 2 ≤ d) (hdF : (d : F) ≠ 0) (r : ι)
    (u u' w : (ι → F) → F)
    (hu : ∀ c k, u (Function.update c r k) = u c) (hu' : ∀ c k, u' (Function.update c r k) = u' c)
    (hw : ∀ c k, w (Function.update c r k) = w c) :
    (Finset.univ.filter fun c : ι → F => u c ≠ u' c ∧ (u c + c r) ^ d - (u' c + c r) ^ d = w c).card * Fintype.card F
      ≤ (d - 1) * Fintype.card F ^ Fintype.card ι := by
  refine count_update r _ _ fun c => ?_
  simp only [hu, hu', hw, Function.update_self]
  by_cases h : u c = u' c
  · simp [h]
  · simp only [h, ne_eq, not_false_eq_true, true_and]
    exact sbox_count hd hdF h _

/-! ## GMiMC -/

section gmimc

open Fin.CommRing

variable {s : Nat}

/-- The state before round `r`. -/
def state (d : Nat) (c : Nat → F) (x : Fin (s + 1) → F) (r : Nat) : Fin (s + 1) → F :=
  rounds (fun r y => rotate (feistel d (c r) y)) 0 r x

omit [Fintype F] [DecidableEq F] in
theorem state_succ (d : Nat) (c : Nat → F) (x : Fin (s + 1) → F) (r : Nat) :
    state d c x (r + 1) = GmimcTrail.g d c r (state d c x r) := by
  simp only [state, rounds, Nat.zero_add]
  rfl

omit [Fintype F] [DecidableEq F] in
theorem state_congr (d : Nat) {c c' : Nat → F} (x : Fin (s + 1) → F) :
    ∀ r, (∀ j < r, c j = c' j) → state d c x r = state d c' x r := by
  intro r
  induction r with
  | zero => intro _; rfl
  | succ r ih =>
    intro h
    rw [state_succ, state_succ, ih fun j hj => h j (by omega)]
    unfold GmimcTrail.g
    rw [h r (by omega)]

omit [Fintype F] [DecidableEq F] in
theorem state_injective (d : Nat) (c : Nat → F) (r : Nat) :
    Function.Injective fun x : Fin (s + 1) → F => state d c x r := by
  induction r with
  | zero => exact fun x y h => h
  | succ r ih =>
    intro x y h
    simp only [state_succ] at h
    exact ih ((Gmimc.feistel_bijective d (c r)).injective (Gmimc.rotate_bijective.injective h))

omit [Fintype F] [DecidableEq F] in
theorem exists_active (d : Nat) (c : Nat → F) (z z' : Nat → Fin (s + 1) → F)
    (hz : ∀ r, z (r + 1) = GmimcTrail.g d c r (z r)) (hz' : ∀ r, z' (r + 1) = GmimcTrail.g d c r (z' r)) (a : Nat)
    (hne : z a ≠ z' a) : ∃ j, j < s + 1 ∧ z (a + j) 0 ≠ z' (a + j) 0 := by
  by_contra hno
  push Not at hno
  apply hne
  funext i
  have h1 := GmimcTrail.inactive_run d c z z' hz hz' a (-i : Fin (s + 1)).val
    (fun j hj => hno j (by have := (-i : Fin (s + 1)).isLt; omega)) 0
  rw [Fin.cast_val_eq_self, hno _ (-i : Fin (s + 1)).isLt, sub_self, zero_sub, neg_neg] at h1
  exact sub_eq_zero.mp h1.symm

omit [Fintype F] [DecidableEq F] in
/-- If the first words agree before round `N`, then one of the `s` rounds before has an S-box with different inputs
after which the first words agree. -/
theorem exists_drop (d : Nat) (c : Nat → F) {x x' : Fin (s + 1) → F} (hne : x ≠ x') (a : Nat)
    (h0 : state d c x (a + s) 0 = state d c x' (a + s) 0) :
    ∃ k < s, state d c x (a + k) 0 ≠ state d c x' (a + k) 0 ∧
      state d c x (a + k + 1) 0 = state d c x' (a + k + 1) 0 := by
  obtain ⟨j, hj, hact⟩ := exists_active d c (state d c x) (state d c x') (state_succ d c x) (state_succ d c x') a
    (fun h => hne (state_injective d c a h))
  by_contra hno
  push Not at hno
  have : ∀ m, j ≤ m → m ≤ s → state d c x (a + m) 0 ≠ state d c x' (a + m) 0 := by
    intro m hm
    induction m, hm using Nat.le_induction with
    | base => intro _; exact hact
    | succ m _ ih => intro hs; exact hno m (by omega) (ih (by omega))
  exact this s (by omega) le_rfl h0

/-- The constants of a draw, as a function of the round. -/
def ext {R : Nat} (c : Fin R → F) (r : Nat) : F := if h : r < R then c ⟨r, h⟩ else 0

omit [Fintype F] [DecidableEq F] in
theorem ext_update {R : Nat} (c : Fin R → F) (r : Fin R) (k : F) (j : Nat) (hj : j < r.val) :
    ext (Function.update c r k) j = ext c j := by
  unfold ext
  split
  · next h => rw [Function.update_of_ne]; intro he; have := congrArg Fin.val he; simp at this; omega
  · rfl

/-- The event that round `r` gives its S-box different inputs, and adds to the difference of word `i` what makes it
`v`. -/
def Event {R : Nat} (d : Nat) (x x' : Fin (s + 1) → F) (r : Nat) (i : Fin (s + 1)) (v : F) (c : Fin R → F) : Prop :=
  state d (ext c) x r 0 ≠ state d (ext c) x' r 0 ∧
    feistel d (ext c r) (state d (ext c) x r) i - feistel d (ext c r) (state d (ext c) x' r) i = v

instance {R : Nat} (d : Nat) (x x' : Fin (s + 1) → F) (r : Nat) (i : Fin (s + 1)) (v : F) :
    DecidablePred (Event (R := R) d x x' r i v) := fun _ => by unfold Event; infer_instance

theorem Event.count {R : Nat} {d : Nat} (hd : 2 ≤ d) (hdF : (d : F) ≠ 0) (x x' : Fin (s + 1) → F) {r : Nat} (hr : r < R)
    {i : Fin (s + 1)} (hi : i ≠ 0) (v : F) :
    (Finset.univ.filter (Event (R := R) d x x' r i v)).card * Fintype.card F ≤ (d - 1) * Fintype.card F ^ R := by
  have hst : ∀ (y : Fin (s + 1) → F) (c : Fin R → F) k,
      state d (ext (Function.update c ⟨r, hr⟩ k)) y r = state d (ext c) y r :=
    fun y c k => state_congr d y r fun j hj => ext_update c ⟨r, hr⟩ k j hj
  have := event_count (F := F) hd hdF (⟨r, hr⟩ : Fin R) (fun c => state d (ext c) x r 0)
    (fun c => state d (ext c) x' r 0) (fun c => v - (state d (ext c) x r i - state d (ext c) x' r i))
    (fun c k => by simp only [hst]) (fun c k => by simp only [hst]) (fun c k => by simp only [hst])
  rw [Fintype.card_fin] at this
  refine le_trans (Nat.mul_le_mul_right _ (Finset.card_le_card fun c hc => ?_)) this
  rw [Finset.mem_filter] at hc ⊢
  refine ⟨hc.1, hc.2.1, ?_⟩
  have h := hc.2.2
  unfold feistel at h
  rw [if_neg hi, if_neg hi] at h
  have he : ext c r = c ⟨r, hr⟩ := by unfold ext; rw [dif_pos hr]
  rw [he] at h
  linear_combination h

omit [Fintype F] [DecidableEq F] in
/-- A rotation brings the last word to the front. -/
theorem state_succ_zero (d : Nat) (c : Nat → F) (x : Fin (s + 1) → F) (r : Nat) :
    state d c x (r + 1) 0 = feistel d (c r) (state d c x r) (0 - 1) := by
  rw [state_succ]
  rfl

/-- The number of draws after which the two outputs differ by `v` in word `i`. -/
theorem gmimc_count {R d : Nat} (hd : 2 ≤ d) (hdF : (d : F) ≠ 0) (hs : 1 ≤ s) {n : Nat} (hR : R = n + 1) (hn : s + 1 ≤ n)
    {x x' : Fin (s + 1) → F} (hne : x ≠ x') (i : Fin (s + 1)) (v : F) :
    (Finset.univ.filter fun c : Fin R → F => gmimc d (ext c) n x i - gmimc d (ext c) n x' i = v).card *
      Fintype.card F ≤ (s + 1) * (d - 1) * Fintype.card F ^ R := by
  have hlast : (0 : Fin (s + 1)) - 1 ≠ 0 := by
    intro h
    have h1 : (1 : Fin (s + 1)) = 0 := by linear_combination -h
    have := congrArg Fin.val h1
    rw [show (1 : Fin (s + 1)) = ((1 : ℕ) : Fin (s + 1)) by simp, Fin.val_natCast, Nat.mod_eq_of_lt (by omega)] at this
    simp at this
  -- the round that decides, and the word it decides
  obtain ⟨N, l, hl, hNs, hNn, hdec⟩ : ∃ (N : Nat) (l : Fin (s + 1)), l ≠ 0 ∧ s ≤ N ∧ N ≤ n ∧
      ∀ (c : Fin R → F) (y : Fin (s + 1) → F),
        gmimc d (ext c) n y i = feistel d (ext c N) (state d (ext c) y N) l := by
    by_cases hi : i = 0
    · refine ⟨n - 1, 0 - 1, hlast, by omega, by omega, fun c y => ?_⟩
      rw [← state_succ_zero, show n - 1 + 1 = n by omega, hi]
      rfl
    · exact ⟨n, i, hi, by omega, le_rfl, fun c y => rfl⟩
  obtain ⟨a, rfl⟩ : ∃ a, N = a + s := ⟨N - s, by omega⟩
  have hcover : (Finset.univ.filter fun c : Fin R → F => gmimc d (ext c) n x i - gmimc d (ext c) n x' i = v) ⊆
      (Finset.univ.filter (Event (R := R) d x x' (a + s) l v)) ∪
        (Finset.range s).biUnion fun k => Finset.univ.filter (Event (R := R) d x x' (a + k) (0 - 1) 0) := by
    intro c hc
    rw [Finset.mem_filter, hdec, hdec] at hc
    rw [Finset.mem_union]
    by_cases h0 : state d (ext c) x (a + s) 0 = state d (ext c) x' (a + s) 0
    · obtain ⟨k, hk, h1, h2⟩ := exists_drop d (ext c) hne a h0
      refine Or.inr (Finset.mem_biUnion.mpr ⟨k, Finset.mem_range.mpr hk, ?_⟩)
      rw [Finset.mem_filter]
      refine ⟨Finset.mem_univ _, h1, ?_⟩
      rw [← state_succ_zero, ← state_succ_zero, h2, sub_self]
    · exact Or.inl (Finset.mem_filter.mpr ⟨Finset.mem_univ _, h0, hc.2⟩)
  calc (Finset.univ.filter fun c : Fin R → F => gmimc d (ext c) n x i - gmimc d (ext c) n x' i = v).card * Fintype.card F
      ≤ ((Finset.univ.filter (Event (R := R) d x x' (a + s) l v)).card +
          ∑ k ∈ Finset.range s, (Finset.univ.filter (Event (R := R) d x x' (a + k) (0 - 1) 0)).card) *
            Fintype.card F := by
        refine Nat.mul_le_mul_right _ ((Finset.card_le_card hcover).trans ((Finset.card_union_le _ _).trans ?_))
        exact Nat.add_le_add_left Finset.card_biUnion_le _
    _ ≤ (d - 1) * Fintype.card F ^ R + ∑ _k ∈ Finset.range s, (d - 1) * Fintype.card F ^ R := by
        rw [Nat.add_mul, Finset.sum_mul]
        refine Nat.add_le_add (Event.count hd hdF x x' (by omega) hl v) (Finset.sum_le_sum fun k hk => ?_)
        have := Finset.mem_range.mp hk
        exact Event.count hd hdF x x' (by omega) hlast 0
    _ = (s + 1) * (d - 1) * Fintype.card F ^ R := by
        rw [Finset.sum_const, Finset.card_range, smul_eq_mul]
        ring

end gmimc

end ZkHash.Universal
