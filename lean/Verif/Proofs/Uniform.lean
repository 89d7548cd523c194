import Verif.Proofs.LastRound
import Verif.Proofs.NeptuneLast

set_option autoImplicit false

/-!
# The constants of the last rounds against the output, for one input
-/

namespace ZkHash.Uniform

open Spec Matrix

/-- A full round, as a function of its constants, is a bijection. -/
theorem fullRound_bijective {F : Type} [Field F] {t d : Nat} {M : Matrix (Fin t) (Fin t) F} (hM : M.det ≠ 0)
    (hpow : Function.Bijective fun x : F => x ^ d) (z : Fin t → F) :
    Function.Bijective fun c : Fin t → F => fullRound M d c z := by
  have h1 : Function.Bijective fun c : Fin t → F => fun i => (z i + c i) ^ d :=
    (Equiv.piCongrRight fun i =>
      Equiv.ofBijective (fun k : F => (z i + k) ^ d) (hpow.comp (Equiv.addLeft (z i)).bijective)).bijective
  exact ((mulVec_bijective_iff M).mpr hM).comp h1

/-! ## GMiMC -/

section gmimc

open Fin.CommRing Universal

variable {F : Type} [Field F] {s : Nat}

/-- The result of GMiMC is the state after all rounds, with the last rotation undone. -/
theorem gmimc_state (d : Nat) (c : Nat → F) (n : Nat) (x : Fin (s + 1) → F) (i : Fin (s + 1)) :
    gmimc d c n x i = state d c x (n + 1) (i + 1) := by
  rw [state_succ]
  show _ = feistel d (c n) (state d c x n) (i + 1 - 1)
  rw [add_sub_cancel_right]
  rfl

/-- What round `a + j` adds to the difference of two runs. -/
def gain (d : Nat) (c c' : Nat → F) (x : Fin (s + 1) → F) (r : Nat) : F :=
  (state d c x r 0 + c r) ^ d - (state d c' x r 0 + c' r) ^ d

/-- Two runs from the same input whose constants agree before round `a`: each later round adds its gain to the difference
of all words but one. -/
theorem diff_run (d : Nat) {c c' : Nat → F} (x : Fin (s + 1) → F) {a : Nat} (h : ∀ r < a, c r = c' r) (k : Nat)
    (i : Fin (s + 1)) :
    state d c x (a + k) (i + (k : Fin (s + 1))) - state d c' x (a + k) (i + (k : Fin (s + 1))) =
      ∑ j ∈ Finset.range k, if i + (j : Fin (s + 1)) = 0 then 0 else gain d c c' x (a + j) := by
  induction k with
  | zero => simp [state_congr d x a h]
  | succ k ih =>
    rw [Finset.sum_range_succ, ← ih, ← Nat.add_assoc, state_succ, state_succ]
    have e : i + ((k + 1 : ℕ) : Fin (s + 1)) - 1 = i + (k : Fin (s + 1)) := by push_cast; ring
    show feistel d (c (a + k)) (state d c x (a + k)) (i + ((k + 1 : ℕ) : Fin (s + 1)) - 1) -
      feistel d (c' (a + k)) (state d c' x (a + k)) (i + ((k + 1 : ℕ) : Fin (s + 1)) - 1) = _
    rw [e]
    unfold feistel gain
    split
    · next h0 => rw [h0]; ring
    · ring

/-- If as many rounds as there are words end in the same state, their constants are the same. -/
theorem last_injective {d : Nat} (hs : (s : F) ≠ 0) (hpow : Function.Injective fun x : F => x ^ d) {c c' : Nat → F}
    (x : Fin (s + 1) → F) {a : Nat} (h : ∀ r < a, c r = c' r)
    (he : state d c x (a + (s + 1)) = state d c' x (a + (s + 1))) : ∀ j < s + 1, c (a + j) = c' (a + j) := by
  obtain ⟨S, hS⟩ : ∃ S, S = ∑ j ∈ Finset.range (s + 1), gain d c c' x (a + j) := ⟨_, rfl⟩
  have hall : ∀ j < s + 1, gain d c c' x (a + j) = S := by
    intro j hj
    have := diff_run d x h (s + 1) (-(j : Fin (s + 1)))
    rw [he, sub_self] at this
    have hterm : ∀ m ∈ Finset.range (s + 1),
        (if -(j : Fin (s + 1)) + (m : Fin (s + 1)) = 0 then 0 else gain d c c' x (a + m)) =
          gain d c c' x (a + m) - if m = j then gain d c c' x (a + m) else 0 := by
      intro m hm
      rw [Finset.mem_range] at hm
      by_cases hmj : m = j
      · rw [if_pos (by rw [hmj]; ring), if_pos hmj, sub_self]
      · rw [if_neg, if_neg hmj, sub_zero]
        intro h0
        apply hmj
        have h1 : (m : Fin (s + 1)) = (j : Fin (s + 1)) := by linear_combination h0
        have := congrArg Fin.val h1
        rwa [Fin.val_natCast, Fin.val_natCast, Nat.mod_eq_of_lt hm, Nat.mod_eq_of_lt hj] at this
    rw [Finset.sum_congr rfl hterm, Finset.sum_sub_distrib, ← hS, Finset.sum_ite_eq' (Finset.range (s + 1)) j,
      if_pos (Finset.mem_range.mpr hj)] at this
    linear_combination this
  have hS0 : S = 0 := by
    have h1 : S = ((s + 1 : ℕ) : F) * S := by
      conv_lhs => rw [hS]
      rw [Finset.sum_congr rfl fun j hj => hall j (Finset.mem_range.mp hj), Finset.sum_const, Finset.card_range,
        nsmul_eq_mul]
    have h2 : (s : F) * S = 0 := by
      push_cast at h1
      linear_combination -h1
    rcases mul_eq_zero.mp h2 with h | h
    · exact absurd h hs
    · exact h
  intro j
  induction j using Nat.strong_induction_on with
  | _ j ih =>
    intro hj
    have hg := hall j hj
    rw [hS0] at hg
    unfold gain at hg
    rw [state_congr d x (c := c) (c' := c') (a + j) (fun r hr => by
      by_cases hra : r < a
      · exact h r hra
      · have := ih (r - a) (by omega) (by omega)
        rwa [show a + (r - a) = r by omega] at this)] at hg
    have := hpow (sub_eq_zero.mp hg)
    exact add_left_cancel this

/-- The constants of the last rounds, as many as there are words, against the result. -/
theorem gmimc_bijective [Finite F] {d : Nat} (hs : (s : F) ≠ 0) (hpow : Function.Injective fun x : F => x ^ d)
    (pre : List F) {n : Nat} (hn : pre.length + (s + 1) = n + 1) (x : Fin (s + 1) → F) :
    Function.Bijective fun c : Fin (s + 1) → F => gmimc d (vec (pre ++ List.ofFn c)) n x := by
  rw [← Finite.injective_iff_bijective]
  intro c c' he
  have hstate : state d (vec (pre ++ List.ofFn c)) x (pre.length + (s + 1)) =
      state d (vec (pre ++ List.ofFn c')) x (pre.length + (s + 1)) := by
    funext i
    have := congrFun he (i - 1)
    simp only [gmimc_state, sub_add_cancel] at this
    rw [hn]
    exact this
  have := last_injective hs hpow x (fun r hr => by
    unfold vec
    simp only [List.getD, List.getElem?_append_left hr]) hstate
  funext j
  have := this j j.isLt
  have hval : ∀ c : Fin (s + 1) → F, vec (pre ++ List.ofFn c) (pre.length + j) = c j := by
    intro c
    unfold vec List.getD
    rw [List.getElem?_append_right (by omega), Nat.add_sub_cancel_left, List.getElem?_ofFn, dif_pos j.isLt]
    rfl
  rwa [hval, hval] at this

end gmimc

/-! ## Counting -/

/-- If every beginning has exactly one end with property `E`, then there are as many draws with property `E` as
beginnings. -/
theorem count_unique {F : Type} [Fintype F] {a b : Nat} (E : List F → Prop)
    (h : ∀ u : Fin a → F, ∃! v : Fin b → F, E (List.ofFn u ++ List.ofFn v)) :
    Nat.card {c : Fin (a + b) → F // E (List.ofFn c)} = Fintype.card F ^ a := by
  choose g hg huniq using h
  have hb : Function.Bijective fun u : Fin a → F =>
      (⟨Fin.append u (g u), by rw [List.ofFn_fin_append]; exact hg u⟩ : {c : Fin (a + b) → F // E (List.ofFn c)}) := by
    constructor
    · intro u u' he
      have := congrArg Subtype.val he
      simp only at this
      funext i
      have := congrFun this (Fin.castAdd b i)
      rwa [Fin.append_left, Fin.append_left] at this
    · rintro ⟨c, hc⟩
      obtain ⟨u, v, rfl⟩ : ∃ (u : Fin a → F) (v : Fin b → F), c = Fin.append u v :=
        ⟨fun i => c (Fin.castAdd b i), fun i => c (Fin.natAdd a i), (Fin.append_castAdd_natAdd).symm⟩
      refine ⟨u, Subtype.ext ?_⟩
      rw [List.ofFn_fin_append] at hc
      simp only
      rw [huniq u v hc]
  rw [← Nat.card_congr (Equiv.ofBijective _ hb), Nat.card_eq_fintype_card, Fintype.card_fun, Fintype.card_fin]

/-- The states with a given word. -/
theorem count_word {F : Type} [Fintype F] {t : Nat} (i : Fin t) (h : F) :
    Nat.card {y : Fin t → F // y i = h} = Fintype.card F ^ (t - 1) := by
  classical
  let e : {y : Fin t → F // y i = h} ≃ ({j : Fin t // j ≠ i} → F) :=
    { toFun := fun y j => y.1 j.1
      invFun := fun g => ⟨fun j => if hj : j = i then h else g ⟨j, hj⟩, by simp⟩
      left_inv := by
        rintro ⟨y, hy⟩
        refine Subtype.ext (funext fun j => ?_)
        by_cases hj : j = i
        · simp [hj, hy]
        · simp [hj]
      right_inv := by
        intro g
        funext j
        simp [j.2] }
  rw [Nat.card_congr e, Nat.card_eq_fintype_card, Fintype.card_fun, Fintype.card_subtype_compl, Fintype.card_fin,
    Fintype.card_subtype_eq]

/-- If every state is the result of exactly `m` draws, then every value of a word is the result of `m * q ^ (t - 1)`. -/
theorem count_of_states {F α : Type} [Fintype F] [Finite α] {t m : Nat} (f : α → Option (List F))
    (h : ∀ y : Fin t → F, Nat.card {c // f c = some (List.ofFn y)} = m)
    (hlen : ∀ c y, f c = some y → y.length = t) (i : Fin t) (v : F) :
    Nat.card {c // (f c).bind (fun y => y[i.val]?) = some v} = Fintype.card F ^ (t - 1) * m := by
  classical
  let e : (Σ y : {y : Fin t → F // y i = v}, {c // f c = some (List.ofFn y.1)}) ≃
      {c // (f c).bind (fun y => y[i.val]?) = some v} :=
    Equiv.ofBijective (fun p => ⟨p.2.1, by
      rw [p.2.2]
      simp [p.1.2]⟩) (by
      constructor
      · rintro ⟨⟨y, hy⟩, ⟨c, hc⟩⟩ ⟨⟨y', hy'⟩, ⟨c', hc'⟩⟩ he
        have hcc : c = c' := congrArg Subtype.val he
        subst hcc
        have : y = y' := List.ofFn_injective (Option.some.inj (hc.symm.trans hc'))
        subst this
        rfl
      · rintro ⟨c, hc⟩
        cases hf : f c with
        | none => rw [hf] at hc; cases hc
        | some y =>
          obtain ⟨y, rfl⟩ := eq_ofFn y (hlen c y hf)
          refine ⟨⟨⟨y, ?_⟩, ⟨c, hf⟩⟩, rfl⟩
          rw [hf] at hc
          simpa using hc)
  rw [← Nat.card_congr e, Nat.card_sigma, Finset.sum_congr rfl fun y _ => h y.1, Finset.sum_const, Finset.card_univ,
    smul_eq_mul, ← Nat.card_eq_fintype_card, count_word]

end ZkHash.Uniform
