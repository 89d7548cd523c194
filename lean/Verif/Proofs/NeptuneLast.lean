import Verif.Theorems.Universal
import Verif.Theorems.NeptuneNew

set_option autoImplicit false

/-!
# Counting the constants of the last round but one for which two outputs of Neptune differ by a given value
-/

namespace ZkHash.Universal

open Spec Matrix

section count

variable {F : Type} [Field F] [Fintype F] [DecidableEq F]

/-- If every line in direction `e` meets `E` in at most `m` points, then `E` has at most `m` in `q` of all points. -/
theorem count_line {ι : Type} [Fintype ι] [DecidableEq ι] (e : ι → F) (E : (ι → F) → Prop) [DecidablePred E] (m : Nat)
    (h : ∀ c, (Finset.univ.filter fun s : F => E (c + s • e)).card ≤ m) :
    (Finset.univ.filter E).card * Fintype.card F ≤ m * Fintype.card F ^ Fintype.card ι := by
  have e1 : ∀ s : F, (Finset.univ.filter E).card = ∑ c : ι → F, if E (c + s • e) then 1 else 0 := by
    intro s
    rw [Finset.card_filter]
    exact (Equiv.sum_comp (Equiv.addRight (s • e)) (fun c : ι → F => if E c then 1 else 0)).symm
  have e2 : (Finset.univ.filter E).card * Fintype.card F = ∑ c : ι → F, ∑ s : F, if E (c + s • e) then 1 else 0 := by
    rw [Finset.sum_comm, Finset.sum_congr rfl (fun s _ => (e1 s).symm), Finset.sum_const, Finset.card_univ, smul_eq_mul,
      mul_comm]
  rw [e2]
  calc (∑ c : ι → F, ∑ s : F, if E (c + s • e) then 1 else 0)
      ≤ ∑ _c : ι → F, m := by
        refine Finset.sum_le_sum fun c _ => ?_
        rw [← Finset.card_filter]
        exact h c
    _ = m * Fintype.card F ^ Fintype.card ι := by
        rw [Finset.sum_const, Finset.card_univ, Fintype.card_fun, smul_eq_mul, mul_comm]

/-- At most one solution of a linear equation. -/
theorem line_card_le_one {E : F → Prop} [DecidablePred E] {a b : F} (ha : a ≠ 0) (h : ∀ s, E s → s * a = b) :
    (Finset.univ.filter E).card ≤ 1 := by
  rw [Finset.card_le_one]
  intro s hs s' hs'
  rw [Finset.mem_filter] at hs hs'
  exact mul_right_cancel₀ ha ((h s hs.2).trans (h s' hs'.2).symm)

end count

section pair

variable {F : Type} [Field F]

/-- The inner difference of the S-box on two pairs. -/
def inner (p : F × F) : F := p.1 - 2 * p.2 - (p.1 - p.2) ^ 2

/-- Shifting the first word of both pairs changes the difference of the inner values linearly. -/
theorem inner_shift (p p' : F × F) (s : F) :
    inner (p.1 + s, p.2) - inner (p'.1 + s, p'.2) =
      inner p - inner p' - s * (2 * ((p.1 - p.2) - (p'.1 - p'.2))) := by
  unfold inner
  ring

/-- Shifting both words of both pairs leaves the difference of the inner values as it is, -/
theorem inner_diag (p p' : F × F) (s : F) :
    inner (p.1 + s, p.2 + s) - inner (p'.1 + s, p'.2 + s) = inner p - inner p' := by
  unfold inner
  ring

/-- and changes the differences of the two outputs linearly. -/
theorem pair_diag_fst (γ : F) (p p' : F × F) (s : F) :
    (neptunePair γ (p.1 + s, p.2 + s)).1 - (neptunePair γ (p'.1 + s, p'.2 + s)).1 =
      (neptunePair γ p).1 - (neptunePair γ p').1 - s * (2 * (inner p - inner p')) := by
  unfold neptunePair inner
  ring

theorem pair_diag_snd (γ : F) (p p' : F × F) (s : F) :
    (neptunePair γ (p.1 + s, p.2 + s)).2 - (neptunePair γ (p'.1 + s, p'.2 + s)).2 =
      (neptunePair γ p).2 - (neptunePair γ p').2 - s * (2 * (inner p - inner p')) := by
  unfold neptunePair inner
  ring

/-- Different pairs whose words differ by the same amount have different inner values. -/
theorem inner_ne {p p' : F × F} (hne : p ≠ p') (hu : (p.1 - p.2) - (p'.1 - p'.2) = 0) : inner p - inner p' ≠ 0 := by
  intro h
  apply hne
  have h1 : p.1 - p.2 = p'.1 - p'.2 := sub_eq_zero.mp hu
  unfold inner at h
  rw [h1] at h
  have h2 : p.2 = p'.2 := by linear_combination h1 - h
  exact Prod.ext (by linear_combination h1 + h2) h2

end pair

section round

variable {F : Type} [Field F] [Fintype F] [DecidableEq F] {k : Nat}

/-- Pair `l` of a state. -/
def pairAt (x : Fin (2 * k) → F) (l : Fin k) : F × F := (x ⟨2 * l, by omega⟩, x ⟨2 * l + 1, by omega⟩)

omit [Fintype F] [DecidableEq F] in
theorem onPairs_apply (g : F × F → F × F) (x : Fin (2 * k) → F) (i : Fin (2 * k)) :
    onPairs g x i = if i.val % 2 = 0 then (g (pairAt x ⟨i / 2, by omega⟩)).1 else (g (pairAt x ⟨i / 2, by omega⟩)).2 := rfl

/-- The difference of word `i` of the two images of the external layer. -/
def outDiff (ME : Matrix (Fin (2 * k)) (Fin (2 * k)) F) (γ : F) (w w' : Fin (2 * k) → F) (i : Fin (2 * k))
    (c : Fin (2 * k) → F) : F :=
  (ME *ᵥ onPairs (neptunePair γ) (w + c)) i - (ME *ᵥ onPairs (neptunePair γ) (w' + c)) i

/-- The direction that moves both words of pair `l`. -/
def diagDir (l : Fin k) : Fin (2 * k) → F := fun j => if j.val / 2 = l then 1 else 0

/-- The direction that moves the first word of pair `l`. -/
def fstDir (l : Fin k) : Fin (2 * k) → F := fun j => if j.val = 2 * l then 1 else 0

omit [Fintype F] [DecidableEq F] in
theorem pairAt_diag (w c : Fin (2 * k) → F) (l : Fin k) (s : F) :
    pairAt (w + (c + s • diagDir l)) l = ((pairAt (w + c) l).1 + s, (pairAt (w + c) l).2 + s) := by
  unfold pairAt diagDir
  have h1 : (2 * l.val) / 2 = l := by omega
  have h2 : (2 * l.val + 1) / 2 = l := by omega
  simp only [Pi.add_apply, Pi.smul_apply, h1, h2, if_true, smul_eq_mul, mul_one, add_assoc]

omit [Fintype F] [DecidableEq F] in
theorem pairAt_diag_ne (w c : Fin (2 * k) → F) {l l' : Fin k} (h : l' ≠ l) (s : F) :
    pairAt (w + (c + s • diagDir l)) l' = pairAt (w + c) l' := by
  unfold pairAt diagDir
  have hv : l'.val ≠ l.val := fun he => h (Fin.ext he)
  have h1 : (2 * l'.val) / 2 ≠ l := by omega
  have h2 : (2 * l'.val + 1) / 2 ≠ l := by omega
  simp only [Pi.add_apply, Pi.smul_apply, h1, h2, if_false, smul_eq_mul, mul_zero, add_zero]

omit [Fintype F] [DecidableEq F] in
theorem pairAt_fst (w c : Fin (2 * k) → F) (l : Fin k) (s : F) :
    pairAt (w + (c + s • fstDir l)) l = ((pairAt (w + c) l).1 + s, (pairAt (w + c) l).2) := by
  unfold pairAt fstDir
  have h2 : 2 * l.val + 1 ≠ 2 * l := by omega
  simp only [Pi.add_apply, Pi.smul_apply, h2, if_true, if_false, smul_eq_mul, mul_one, mul_zero, add_zero, add_assoc]

omit [Fintype F] [DecidableEq F] in
/-- Along the diagonal of a pair the difference of the outputs changes linearly. -/
theorem outDiff_diag {A B : Matrix (Fin k) (Fin k) F} (γ : F) (w w' : Fin (2 * k) → F) (i : Fin (2 * k)) (l : Fin k)
    (j : Fin (2 * k)) (hj : j.val / 2 = l) (hij : j.val % 2 = i.val % 2) (c : Fin (2 * k) → F) (s : F) :
    outDiff (parityMatrix A B) γ w w' i (c + s • diagDir l) =
      outDiff (parityMatrix A B) γ w w' i c -
        s * (parityMatrix A B i j * (2 * (inner (pairAt (w + c) l) - inner (pairAt (w' + c) l)))) := by
  unfold outDiff
  simp only [mulVec, dotProduct]
  rw [← Finset.sum_sub_distrib, ← Finset.sum_sub_distrib, ← Finset.sum_erase_add _ _ (Finset.mem_univ j),
    ← Finset.sum_erase_add (a := j) Finset.univ _ (Finset.mem_univ j)]
  have hrest : ∀ m ∈ Finset.univ.erase j, parityMatrix A B i m * onPairs (neptunePair γ) (w + (c + s • diagDir l)) m -
      parityMatrix A B i m * onPairs (neptunePair γ) (w' + (c + s • diagDir l)) m =
      parityMatrix A B i m * onPairs (neptunePair γ) (w + c) m -
        parityMatrix A B i m * onPairs (neptunePair γ) (w' + c) m := by
    intro m hm
    by_cases hpar : i.val % 2 = m.val % 2
    · have hml : (⟨m.val / 2, by omega⟩ : Fin k) ≠ l := by
        intro he
        have := congrArg Fin.val he
        simp only at this
        exact (Finset.ne_of_mem_erase hm) (Fin.ext (by omega))
      simp only [onPairs_apply, pairAt_diag_ne _ _ hml]
    · have : parityMatrix A B i m = 0 := by unfold parityMatrix; rw [if_pos hpar]
      rw [this]
      ring
  rw [Finset.sum_congr rfl hrest]
  have hl : (⟨j.val / 2, by omega⟩ : Fin k) = l := Fin.ext hj
  have hkey : onPairs (neptunePair γ) (w + (c + s • diagDir l)) j - onPairs (neptunePair γ) (w' + (c + s • diagDir l)) j =
      onPairs (neptunePair γ) (w + c) j - onPairs (neptunePair γ) (w' + c) j -
        s * (2 * (inner (pairAt (w + c) l) - inner (pairAt (w' + c) l))) := by
    simp only [onPairs_apply, hl, pairAt_diag]
    split
    · exact pair_diag_fst γ _ _ s
    · exact pair_diag_snd γ _ _ s
  linear_combination parityMatrix A B i j * hkey

/-- One external round on two different states to which the same constants are added. -/
theorem extRound_count (h2 : (2 : F) ≠ 0) (A B : Matrix (Fin k) (Fin k) F) (γ : F) {w w' : Fin (2 * k) → F} (hne : w ≠ w')
    (i : Fin (2 * k)) (hM : ∀ j : Fin (2 * k), j.val % 2 = i.val % 2 → parityMatrix A B i j ≠ 0) (v : F) :
    (Finset.univ.filter fun c => outDiff (parityMatrix A B) γ w w' i c = v).card * Fintype.card F ≤
      2 * Fintype.card F ^ (2 * k) := by
  obtain ⟨l, hl⟩ : ∃ l : Fin k, pairAt w l ≠ pairAt w' l := by
    by_contra hno
    push Not at hno
    apply hne
    funext j
    have := hno ⟨j.val / 2, by omega⟩
    unfold pairAt at this
    simp only [Prod.mk.injEq] at this
    by_cases hj : j.val % 2 = 0
    · have e : (⟨2 * (j.val / 2), by omega⟩ : Fin (2 * k)) = j := Fin.ext (by simp only; omega)
      rw [e] at this
      exact this.1
    · have e : (⟨2 * (j.val / 2) + 1, by omega⟩ : Fin (2 * k)) = j := Fin.ext (by simp only; omega)
      rw [e] at this
      exact this.2
  obtain ⟨j, hj, hij⟩ : ∃ j : Fin (2 * k), j.val / 2 = l ∧ j.val % 2 = i.val % 2 :=
    ⟨⟨2 * l + i.val % 2, by omega⟩, by simp only; omega, by simp only; omega⟩
  have hpne : ∀ c, pairAt (w + c) l ≠ pairAt (w' + c) l := by
    intro c h
    apply hl
    unfold pairAt at h ⊢
    simp only [Pi.add_apply, Prod.mk.injEq, add_left_inj] at h
    rw [h.1, h.2]
  have hu : ∀ c, ((pairAt (w + c) l).1 - (pairAt (w + c) l).2) - ((pairAt (w' + c) l).1 - (pairAt (w' + c) l).2) =
      ((pairAt w l).1 - (pairAt w l).2) - ((pairAt w' l).1 - (pairAt w' l).2) := by
    intro c
    unfold pairAt
    simp only [Pi.add_apply]
    ring
  -- the constants for which the inner values agree
  have c1 : (Finset.univ.filter fun c => inner (pairAt (w + c) l) - inner (pairAt (w' + c) l) = 0).card *
      Fintype.card F ≤ 1 * Fintype.card F ^ (2 * k) := by
    by_cases hd : ((pairAt w l).1 - (pairAt w l).2) - ((pairAt w' l).1 - (pairAt w' l).2) = 0
    · have : (Finset.univ.filter fun c => inner (pairAt (w + c) l) - inner (pairAt (w' + c) l) = 0) = ∅ := by
        rw [Finset.filter_eq_empty_iff]
        intro c _
        exact inner_ne (hpne c) ((hu c).trans hd)
      rw [this]
      simp
    · have := count_line (fstDir l) (fun c => inner (pairAt (w + c) l) - inner (pairAt (w' + c) l) = 0) 1 (fun c => by
        refine line_card_le_one (a := 2 * (((pairAt w l).1 - (pairAt w l).2) - ((pairAt w' l).1 - (pairAt w' l).2)))
          (b := inner (pairAt (w + c) l) - inner (pairAt (w' + c) l)) (mul_ne_zero h2 hd) fun s hs => ?_
        rw [pairAt_fst, pairAt_fst, inner_shift, hu] at hs
        exact (sub_eq_zero.mp hs).symm)
      rwa [Fintype.card_fin] at this
  -- the other constants
  have c2 : (Finset.univ.filter fun c => inner (pairAt (w + c) l) - inner (pairAt (w' + c) l) ≠ 0 ∧
      outDiff (parityMatrix A B) γ w w' i c = v).card * Fintype.card F ≤ 1 * Fintype.card F ^ (2 * k) := by
    have := count_line (diagDir l) (fun c => inner (pairAt (w + c) l) - inner (pairAt (w' + c) l) ≠ 0 ∧
      outDiff (parityMatrix A B) γ w w' i c = v) 1 (fun c => by
        by_cases h0 : inner (pairAt (w + c) l) - inner (pairAt (w' + c) l) = 0
        · simp [pairAt_diag, inner_diag, h0]
        · refine line_card_le_one (a := parityMatrix A B i j *
              (2 * (inner (pairAt (w + c) l) - inner (pairAt (w' + c) l))))
            (b := outDiff (parityMatrix A B) γ w w' i c - v) (mul_ne_zero (hM j hij) (mul_ne_zero h2 h0)) fun s hs => ?_
          have := hs.2
          rw [outDiff_diag γ w w' i l j hj hij] at this
          linear_combination -this)
    rwa [Fintype.card_fin] at this
  have hcover : (Finset.univ.filter fun c => outDiff (parityMatrix A B) γ w w' i c = v) ⊆
      (Finset.univ.filter fun c => inner (pairAt (w + c) l) - inner (pairAt (w' + c) l) = 0) ∪
      (Finset.univ.filter fun c => inner (pairAt (w + c) l) - inner (pairAt (w' + c) l) ≠ 0 ∧
        outDiff (parityMatrix A B) γ w w' i c = v) := by
    intro c hc
    rw [Finset.mem_filter] at hc
    rw [Finset.mem_union, Finset.mem_filter, Finset.mem_filter]
    by_cases h : inner (pairAt (w + c) l) - inner (pairAt (w' + c) l) = 0
    · exact Or.inl ⟨hc.1, h⟩
    · exact Or.inr ⟨hc.1, h, hc.2⟩
  have hcard := (Finset.card_le_card hcover).trans (Finset.card_union_le _ _)
  calc _ ≤ _ := Nat.mul_le_mul_right _ hcard
    _ ≤ 1 * Fintype.card F ^ (2 * k) + 1 * Fintype.card F ^ (2 * k) := by
      rw [Nat.add_mul]
      exact Nat.add_le_add c1 c2
    _ = 2 * Fintype.card F ^ (2 * k) := by ring

end round

section spec

variable {F : Type} [Field F] {k : Nat}

/-- A round without its constants. -/
def bare (ME MI : Matrix (Fin (2 * k)) (Fin (2 * k)) F) (d : Nat) (γ : F) (rf rp r : Nat) (y : Fin (2 * k) → F) :
    Fin (2 * k) → F :=
  if r < rf ∨ rf + rp ≤ r then ME *ᵥ onPairs (neptunePair γ) y
  else MI *ᵥ fun i => if i.val = 0 then y i ^ d else y i

/-- Neptune as one sequence of rounds. -/
theorem neptune_rounds (ME MI : Matrix (Fin (2 * k)) (Fin (2 * k)) F) (d : Nat) (γ : F) (rf rp : Nat)
    (c : Nat → Nat → F) (x : Fin (2 * k) → F) :
    neptune ME MI d γ rf rp c x =
      rounds (fun r y => bare ME MI d γ rf rp r y + fun i : Fin (2 * k) => c r i) 0 (rf + rp + rf) (ME *ᵥ x) := by
  rw [Trail.rounds_add, Trail.rounds_add]
  unfold neptune
  rw [Nat.zero_add, Nat.zero_add]
  rw [ZkHash.rounds_congr (fun r y => bare ME MI d γ rf rp r y + fun i : Fin (2 * k) => c r i)
      (fun r => neptuneExtRound ME γ (fun i : Fin (2 * k) => c r i)) 0 rf (fun r h1 h2 y => by
        unfold bare; rw [if_pos (Or.inl (by omega))]; rfl),
    ZkHash.rounds_congr (fun r y => bare ME MI d γ rf rp r y + fun i : Fin (2 * k) => c r i)
      (fun r => neptuneIntRound MI d (fun i : Fin (2 * k) => c r i)) rf rp (fun r h1 h2 y => by
        unfold bare; rw [if_neg (by omega)]; rfl),
    ZkHash.rounds_congr (fun r y => bare ME MI d γ rf rp r y + fun i : Fin (2 * k) => c r i)
      (fun r => neptuneExtRound ME γ (fun i : Fin (2 * k) => c r i)) (rf + rp) rf (fun r h1 h2 y => by
        unfold bare; rw [if_pos (Or.inr (by omega))]; rfl)]

/-- The state after the last round but one, before its constants are added. -/
def beforeTwo (ME MI : Matrix (Fin (2 * k)) (Fin (2 * k)) F) (d : Nat) (γ : F) (rf rp m : Nat) (c : Nat → Nat → F)
    (x : Fin (2 * k) → F) : Fin (2 * k) → F :=
  bare ME MI d γ rf rp m
    (rounds (fun r y => bare ME MI d γ rf rp r y + fun i : Fin (2 * k) => c r i) 0 m (ME *ᵥ x))

theorem beforeTwo_congr (ME MI : Matrix (Fin (2 * k)) (Fin (2 * k)) F) (d : Nat) (γ : F) (rf rp m : Nat)
    {c c' : Nat → Nat → F} (h : ∀ r < m, ∀ i, c r i = c' r i) (x : Fin (2 * k) → F) :
    beforeTwo ME MI d γ rf rp m c x = beforeTwo ME MI d γ rf rp m c' x := by
  unfold beforeTwo
  rw [ZkHash.rounds_congr _ (fun r y => bare ME MI d γ rf rp r y + fun i : Fin (2 * k) => c' r i) 0 m
    (fun r _ hr y => by
      have : (fun i : Fin (2 * k) => c r i) = fun i : Fin (2 * k) => c' r i := funext fun i => h r (by omega) i
      simp only [this])]

theorem neptune_last (ME MI : Matrix (Fin (2 * k)) (Fin (2 * k)) F) (d : Nat) (γ : F) {rf rp m : Nat} (hrf : 0 < rf)
    (hm : rf + rp + rf = m + 2) (c : Nat → Nat → F) (x : Fin (2 * k) → F) :
    neptune ME MI d γ rf rp c x =
      (ME *ᵥ onPairs (neptunePair γ) (beforeTwo ME MI d γ rf rp m c x + fun i : Fin (2 * k) => c m i)) +
        fun i : Fin (2 * k) => c (m + 1) i := by
  rw [neptune_rounds, hm]
  simp only [rounds, Nat.zero_add]
  rw [show bare ME MI d γ rf rp (m + 1) = fun y => ME *ᵥ onPairs (neptunePair γ) y by
    funext y; unfold bare; rw [if_pos (Or.inr (by omega))]]
  rfl

end spec

end ZkHash.Universal
