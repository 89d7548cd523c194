import Verif.Spec.Poseidon2
import Mathlib.LinearAlgebra.Matrix.NonsingularInverse
import Mathlib.GroupTheory.OrderOfElement
import Mathlib.GroupTheory.Perm.Cycle.Type
import Mathlib.FieldTheory.Finite.Basic
import Mathlib.Data.Fintype.Pi
import Mathlib.Data.List.OfFn

set_option autoImplicit false

/-!
# Bijectivity of round functions
-/

namespace ZkHash

open Spec Matrix Function

theorem eq_ofFn {α : Type _} {n : Nat} (l : List α) (h : l.length = n) : ∃ x : Fin n → α, l = List.ofFn x := by
  subst h
  exact ⟨l.get, (List.ofFn_get l).symm⟩

/-- A list function that acts as `g` on vectors is a permutation of the states of width `t` iff `g` is bijective. -/
theorem isPermutation_iff {F : Type _} {t : Nat} {f : List F → Option (List F)} {g : (Fin t → F) → Fin t → F}
    (h : ∀ x, f (List.ofFn x) = some (List.ofFn (g x))) : IsPermutation t f ↔ Bijective g := by
  constructor
  · rintro ⟨_, h2⟩
    constructor
    · intro x y hxy
      have := (h2 (List.ofFn (g x)) (by simp)).unique (y₁ := List.ofFn x) (y₂ := List.ofFn y)
        ⟨by simp, h x⟩ ⟨by simp, by rw [h y, hxy]⟩
      exact List.ofFn_injective this
    · intro y
      obtain ⟨x, ⟨hx, hy⟩, _⟩ := h2 (List.ofFn y) (by simp)
      obtain ⟨x, rfl⟩ := eq_ofFn x hx
      rw [h x, Option.some.injEq] at hy
      exact ⟨x, List.ofFn_injective hy⟩
  · intro hg
    constructor
    · intro x hx
      obtain ⟨x, rfl⟩ := eq_ofFn x hx
      exact ⟨_, by simp, h x⟩
    · intro y hy
      obtain ⟨y, rfl⟩ := eq_ofFn y hy
      obtain ⟨x, hx⟩ := hg.2 y
      refine ⟨List.ofFn x, ⟨by simp, by rw [h x, hx]⟩, ?_⟩
      rintro x' ⟨hl, hx'⟩
      obtain ⟨x', rfl⟩ := eq_ofFn x' hl
      rw [h x', Option.some.injEq] at hx'
      congr 1
      apply hg.1
      rw [hx, List.ofFn_injective hx']

section finite
variable {S : Type _} [Finite S]

/-- A composition of self-maps of a finite type is a bijection iff both factors are. -/
theorem bijective_comp_iff (f g : S → S) : Bijective (f ∘ g) ↔ Bijective f ∧ Bijective g := by
  constructor
  · intro h
    exact ⟨Finite.surjective_iff_bijective.mp h.2.of_comp, Finite.injective_iff_bijective.mp h.1.of_comp⟩
  · rintro ⟨h1, h2⟩; exact h1.comp h2

theorem rounds_bijective_iff (f : Nat → S → S) (a n : Nat) :
    Bijective (rounds f a n) ↔ ∀ r, a ≤ r → r < a + n → Bijective (f r) := by
  induction n with
  | zero => 
    constructor
    · intro _ r h1 h2; omega
    · intro _; exact bijective_id
  | succ n ih =>
    have : rounds f a (n + 1) = f (a + n) ∘ rounds f a n := rfl
    rw [this, bijective_comp_iff, ih]
    constructor
    · rintro ⟨h1, h2⟩ r hr1 hr2
      by_cases hr : r = a + n
      · subst hr; exact h1
      · exact h2 r hr1 (by omega)
    · intro h
      exact ⟨h _ (by omega) (by omega), fun r h1 h2 => h r h1 (by omega)⟩

end finite

theorem rounds_bijective {S : Type _} (f : Nat → S → S) (a n : Nat)
    (h : ∀ r, a ≤ r → r < a + n → Bijective (f r)) : Bijective (rounds f a n) := by
  induction n with
  | zero => exact bijective_id
  | succ n ih =>
    exact (h (a + n) (by omega) (by omega)).comp (ih fun r h1 h2 => h r h1 (by omega))

section field
variable {F : Type _} [Field F] {t : Nat}

theorem mulVec_bijective_iff (M : Matrix (Fin t) (Fin t) F) : Bijective M.mulVec ↔ M.det ≠ 0 := by
  rw [← isUnit_iff_ne_zero, ← isUnit_iff_isUnit_det]
  constructor
  · intro h; exact mulVec_injective_iff_isUnit.mp h.1
  · intro h; exact ⟨mulVec_injective_iff_isUnit.mpr h, mulVec_surjective_iff_isUnit.mpr h⟩

theorem pow_injective_of_coprime [Fintype F] {d : Nat} (hd : Nat.Coprime d (Fintype.card F - 1)) (hd0 : d ≠ 0) :
    Injective fun x : F => x ^ d := by
  classical
  intro x y hxy
  simp only at hxy
  by_cases hx : x = 0
  · subst hx
    rw [zero_pow hd0] at hxy
    exact (pow_eq_zero_iff hd0).mp hxy.symm |>.symm
  · have hy : y ≠ 0 := by
      rintro rfl
      rw [zero_pow hd0] at hxy
      exact hx ((pow_eq_zero_iff hd0).mp hxy)
    have hc : (Nat.card Fˣ).Coprime d := by
      rw [Nat.card_eq_fintype_card, Fintype.card_units]; exact hd.symm
    have := (powCoprime hc).injective (a₁ := Units.mk0 x hx) (a₂ := Units.mk0 y hy) (by
      simp only [powCoprime_apply]
      ext
      simpa using hxy)
    simpa using congrArg Units.val this

theorem coprime_of_pow_injective [Fintype F] {d : Nat} (h : Injective fun x : F => x ^ d) :
    Nat.Coprime d (Fintype.card F - 1) := by
  classical
  by_contra hc
  obtain ⟨p, hp, hpd, hpc⟩ := Nat.Prime.not_coprime_iff_dvd.mp hc
  have := Fact.mk hp
  rw [← Fintype.card_units] at hpc
  obtain ⟨u, hu⟩ := exists_prime_orderOf_dvd_card (G := Fˣ) p hpc
  have hu1 : u ^ d = 1 := orderOf_dvd_iff_pow_eq_one.mp (hu ▸ hpd)
  have : (u : F) = 1 := h (by
    simp only [one_pow]
    rw [← Units.val_pow_eq_pow_val, hu1, Units.val_one])
  have hu2 : u = 1 := Units.ext this
  rw [hu2, orderOf_one] at hu
  exact hp.one_lt.ne hu

/-- `x ↦ x^d` is a bijection of a finite field iff `d` is coprime to `q - 1`. -/
theorem pow_bijective_iff [Fintype F] {d : Nat} (hd0 : d ≠ 0) :
    (Bijective fun x : F => x ^ d) ↔ Nat.Coprime d (Fintype.card F - 1) :=
  ⟨fun h => coprime_of_pow_injective h.1,
   fun h => Finite.injective_iff_bijective.mp (pow_injective_of_coprime h hd0)⟩

theorem addPow_bijective_iff {d : Nat} (c : F) :
    (Bijective fun x : F => (x + c) ^ d) ↔ Bijective fun x : F => x ^ d := by
  have : (fun x : F => (x + c) ^ d) = (fun x : F => x ^ d) ∘ (Equiv.addRight c) := by
    funext x; simp
  rw [this, Bijective.of_comp_iff _ (Equiv.bijective _)]

/-- A coordinatewise map is a bijection iff every coordinate map is. -/
theorem pi_bijective_iff (f : Fin t → F → F) :
    (Bijective fun (x : Fin t → F) i => f i (x i)) ↔ ∀ i, Bijective (f i) := by
  classical
  constructor
  · intro h i
    constructor
    · intro a b hab
      have := h.1 (a₁ := Function.update (fun _ => 0) i a) (a₂ := Function.update (fun _ => 0) i b) (by
        funext j
        by_cases hj : j = i
        · subst hj; simpa using hab
        · simp [hj])
      simpa using congrFun this i
    · intro y
      obtain ⟨x, hx⟩ := h.2 (fun _ => y)
      exact ⟨x i, congrFun hx i⟩
  · intro h
    constructor
    · intro x y hxy
      funext i
      exact (h i).1 (congrFun hxy i)
    · intro y
      choose x hx using fun i => (h i).2 (y i)
      exact ⟨x, funext hx⟩

theorem fullRound_bijective_iff [Fintype F] (ht : 0 < t) (M : Matrix (Fin t) (Fin t) F) {d : Nat} (hd : d ≠ 0)
    (c : Fin t → F) :
    Bijective (fullRound M d c) ↔ M.det ≠ 0 ∧ Nat.Coprime d (Fintype.card F - 1) := by
  have : fullRound M d c = M.mulVec ∘ fun (x : Fin t → F) i => (x i + c i) ^ d := rfl
  rw [this, bijective_comp_iff, mulVec_bijective_iff, pi_bijective_iff (f := fun i y => (y + c i) ^ d)]
  simp only [addPow_bijective_iff, pow_bijective_iff hd]
  constructor
  · rintro ⟨h1, h2⟩; exact ⟨h1, h2 ⟨0, ht⟩⟩
  · rintro ⟨h1, h2⟩; exact ⟨h1, fun _ => h2⟩

theorem partialRound_bijective_iff [Fintype F] (ht : 0 < t) (M : Matrix (Fin t) (Fin t) F) {d : Nat} (hd : d ≠ 0)
    (c0 : F) :
    Bijective (partialRound M d c0) ↔ M.det ≠ 0 ∧ Nat.Coprime d (Fintype.card F - 1) := by
  have : partialRound M d c0 =
      M.mulVec ∘ fun (x : Fin t → F) i => if i.val = 0 then (x i + c0) ^ d else x i := rfl
  rw [this, bijective_comp_iff, mulVec_bijective_iff,
    pi_bijective_iff (f := fun i y => if i.val = 0 then (y + c0) ^ d else y)]
  constructor
  · rintro ⟨h1, h2⟩
    refine ⟨h1, ?_⟩
    have := h2 ⟨0, ht⟩
    simp only [if_true] at this
    rwa [addPow_bijective_iff, pow_bijective_iff hd] at this
  · rintro ⟨h1, h2⟩
    refine ⟨h1, fun i => ?_⟩
    by_cases hi : i.val = 0
    · simp only [hi, if_true]
      rwa [addPow_bijective_iff, pow_bijective_iff hd]
    · simp only [hi, if_false]
      exact bijective_id

theorem poseidon2_bijective_iff [Fintype F] (ht : 0 < t) (ME MI : Matrix (Fin t) (Fin t) F) {d : Nat} (hd : d ≠ 0)
    (rf rp : Nat) (c : Nat → Nat → F) :
    Bijective (poseidon2 ME MI d rf rp c) ↔
      ME.det ≠ 0 ∧ (rp = 0 ∨ MI.det ≠ 0) ∧ (rf + rp = 0 ∨ Nat.Coprime d (Fintype.card F - 1)) := by
  have : poseidon2 ME MI d rf rp c =
      rounds (fun r => fullRound ME d (fun i : Fin t => c r i)) (rf + rp) rf ∘
      rounds (fun r => partialRound MI d (c r 0)) rf rp ∘
      rounds (fun r => fullRound ME d (fun i : Fin t => c r i)) 0 rf ∘ ME.mulVec := rfl
  rw [this, bijective_comp_iff, bijective_comp_iff, bijective_comp_iff, rounds_bijective_iff, rounds_bijective_iff,
    rounds_bijective_iff, mulVec_bijective_iff]
  simp only [fullRound_bijective_iff ht ME hd, partialRound_bijective_iff ht MI hd]
  constructor
  · rintro ⟨h1, h2, h3, h4⟩
    refine ⟨h4, ?_, ?_⟩
    · by_cases hp : rp = 0
      · exact Or.inl hp
      · exact Or.inr (h2 rf (by omega) (by omega)).1
    · by_cases hp : rp = 0
      · by_cases hf : rf = 0
        · left; omega
        · right; exact (h3 0 (by omega) (by omega)).2
      · right; exact (h2 rf (by omega) (by omega)).2
  · rintro ⟨h1, h2, h3⟩
    refine ⟨fun r a b => ⟨h1, ?_⟩, fun r a b => ⟨?_, ?_⟩, fun r a b => ⟨h1, ?_⟩, h1⟩
    · exact h3.resolve_left (by omega)
    · exact h2.resolve_left (by omega)
    · exact h3.resolve_left (by omega)
    · exact h3.resolve_left (by omega)

end field

end ZkHash
