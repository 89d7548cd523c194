import Verif.Theorems.Compress
import Verif.Theorems.ShippedOther
import Verif.Theorems.Merkle
import Verif.Theorems.Poseidon2Instances
import Verif.Theorems.PoseidonInstances
import Mathlib.GroupTheory.OrderOfElement
import Mathlib.Combinatorics.Pigeonhole
import Mathlib.Data.Fintype.Pi

set_option autoImplicit false

/-!
# Truncated outputs, repeated application, and what a compression of two elements to one cannot be: C94
-/

namespace ZkHash

open Spec Merkle

variable {F : Type}

namespace Balanced

/-- The bijection of `F^t` behind a function on lists. -/
theorem equiv {t : Nat} {f : List F → Option (List F)} (h : IsPermutation t f) :
    ∃ e : (Fin t → F) ≃ (Fin t → F), ∀ x, f (List.ofFn x) = some (List.ofFn (e x)) := by
  have h1 : ∀ x : Fin t → F, ∃ y : Fin t → F, f (List.ofFn x) = some (List.ofFn y) := by
    intro x
    obtain ⟨y, hy, he⟩ := h.1 (List.ofFn x) (by simp)
    subst hy
    exact ⟨fun i => y[i], by rw [he]; congr 1; exact (List.ofFn_getElem (xs := y)).symm⟩
  choose g hg using h1
  refine ⟨Equiv.ofBijective g ⟨fun x x' he => ?_, fun y => ?_⟩, hg⟩
  · obtain ⟨w, -, hu⟩ := h.2 (List.ofFn (g x)) (by simp)
    have a := hu (List.ofFn x) ⟨by simp, hg x⟩
    have b := hu (List.ofFn x') ⟨by simp, by rw [he]; exact hg x'⟩
    exact List.ofFn_injective (a.trans b.symm)
  · obtain ⟨x, ⟨hx, he⟩, -⟩ := h.2 (List.ofFn y) (by simp)
    subst hx
    refine ⟨fun i => x[i], List.ofFn_injective (Option.some.inj ?_)⟩
    rw [← hg, ← he]
    congr 1
    exact List.ofFn_getElem (xs := x)

theorem card_agree [Fintype F] {t : Nat} (I : Finset (Fin t)) (v : Fin t → F) :
    Nat.card {y : Fin t → F // ∀ i ∈ I, y i = v i} = Fintype.card F ^ (t - I.card) := by
  classical
  rw [Nat.card_eq_fintype_card, Fintype.card_subtype]
  have : (Finset.univ.filter fun y : Fin t → F => ∀ i ∈ I, y i = v i) =
      Fintype.piFinset fun i => if i ∈ I then {v i} else Finset.univ := by
    ext y
    simp only [Finset.mem_filter, Finset.mem_univ, true_and, Fintype.mem_piFinset]
    refine forall_congr' fun i => ?_
    by_cases hi : i ∈ I <;> simp [hi]
  rw [this, Fintype.card_piFinset]
  have : ∀ i, (if i ∈ I then ({v i} : Finset F) else Finset.univ).card = if i ∈ I then 1 else Fintype.card F := by
    intro i
    split <;> simp
  simp only [this]
  rw [Finset.prod_ite, Finset.prod_const_one, one_mul, Finset.prod_const]
  congr 1
  rw [show (Finset.univ.filter fun i => i ∉ I) = Iᶜ by ext; simp, Finset.card_compl, Fintype.card_fin]

theorem iterate_ofFn {t : Nat} {f : List F → Option (List F)} {e : (Fin t → F) ≃ (Fin t → F)}
    (he : ∀ x, f (List.ofFn x) = some (List.ofFn (e x))) (n : Nat) (x : Fin t → F) :
    (fun s : Option (List F) => s.bind f)^[n] (some (List.ofFn x)) = some (List.ofFn ((e ^ n : Equiv.Perm _) x)) := by
  induction n with
  | zero => rfl
  | succ n ih =>
    rw [Function.iterate_succ_apply', ih, Option.bind_some, he, pow_succ', Equiv.Perm.mul_apply]

theorem exists_ofFn {t : Nat} {x : List F} (hx : x.length = t) : ∃ y : Fin t → F, x = List.ofFn y := by
  subst hx
  exact ⟨fun i => x[i], (List.ofFn_getElem (xs := x)).symm⟩

end Balanced

open Balanced

/-- **C94**, truncation: if a permutation is a bijection of the states of width `t`, any prescribed values at `k` of the
output positions come from exactly `q^(t-k)` input states. -/
theorem C94_balanced [Fintype F] {t : Nat} {f : List F → Option (List F)} (h : IsPermutation t f) (I : Finset (Fin t))
    (v : Fin t → F) :
    Nat.card {x : Fin t → F // ∃ y, f (List.ofFn x) = some y ∧ ∀ i ∈ I, y[(i : Nat)]? = some (v i)} =
      Fintype.card F ^ (t - I.card) := by
  obtain ⟨e, he⟩ := equiv h
  rw [← card_agree I v]
  refine Nat.card_congr (e.subtypeEquiv fun x => ?_)
  rw [he]
  simp only [Option.some.injEq, exists_eq_left']
  refine forall₂_congr fun i _ => ?_
  simp

/-- **C94**, repeated application: there is a number of applications, the same for all states, after which every state
is back. -/
theorem C94_order [Finite F] {t : Nat} {f : List F → Option (List F)} (h : IsPermutation t f) :
    ∃ n, 0 < n ∧ ∀ x : List F, x.length = t → (fun s : Option (List F) => s.bind f)^[n] (some x) = some x := by
  obtain ⟨e, he⟩ := equiv h
  have hfin : IsOfFinOrder (e : Equiv.Perm (Fin t → F)) := isOfFinOrder_of_finite e
  refine ⟨orderOf (e : Equiv.Perm (Fin t → F)), hfin.orderOf_pos, fun x hx => ?_⟩
  obtain ⟨y, rfl⟩ := exists_ofFn hx
  rw [iterate_ofFn he, pow_orderOf_eq_one]
  rfl

/-- **C94**, repeated application: after any number of applications different states are still different, and none has
panicked. -/
theorem C94_iterate {t : Nat} {f : List F → Option (List F)} (h : IsPermutation t f) (n : Nat) :
    IsPermutation t fun x => (fun s : Option (List F) => s.bind f)^[n] (some x) := by
  obtain ⟨e, he⟩ := equiv h
  constructor
  · intro x hx
    obtain ⟨y, rfl⟩ := exists_ofFn hx
    exact ⟨_, by simp, iterate_ofFn he n y⟩
  · intro z hz
    obtain ⟨z, rfl⟩ := exists_ofFn hz
    refine ⟨List.ofFn ((e ^ n : Equiv.Perm _).symm z), ⟨by simp, ?_⟩, ?_⟩
    · simp only [iterate_ofFn he, Equiv.apply_symm_apply]
    · rintro x ⟨hx, hz⟩
      obtain ⟨y, rfl⟩ := exists_ofFn hx
      simp only [iterate_ofFn he, Option.some.injEq] at hz
      rw [← List.ofFn_injective hz, Equiv.symm_apply_apply]

/-- **C94**, compression: whatever total function of two elements with one element as result, some result has at least
`q` preimages (`q` is the average number). -/
theorem C94_compress_pigeonhole [Fintype F] [Nonempty F] (c : List F → Option F)
    (htot : ∀ a b, (c [a, b]).isSome) :
    ∃ h : F, Fintype.card F ≤ Nat.card {p : F × F // c [p.1, p.2] = some h} := by
  classical
  let g : F × F → F := fun p => (c [p.1, p.2]).get (htot _ _)
  obtain ⟨h, hh⟩ := Fintype.exists_le_card_fiber_of_mul_le_card (f := g) (n := Fintype.card F)
    (by rw [Fintype.card_prod])
  refine ⟨h, ?_⟩
  rw [Nat.card_eq_fintype_card, Fintype.card_subtype]
  refine le_trans hh (le_of_eq (congrArg Finset.card ?_))
  ext p
  simp only [Finset.mem_filter, Finset.mem_univ, true_and, g]
  exact ⟨fun e => by rw [← e, Option.some_get], fun e => by simp [e]⟩

/-- **C94**: so no total compression of two elements to one over a finite field is injective - the security of the tree
rests on collisions being hard to find, not on their absence (C36, C47, C69 and C77 name the pairs that collide). -/
theorem C94_compress_collides [Fintype F] [Nontrivial F] (c : List F → Option F) (htot : ∀ a b, (c [a, b]).isSome) :
    ∃ a b a' b' h, (a, b) ≠ (a', b') ∧ c [a, b] = some h ∧ c [a', b'] = some h := by
  obtain ⟨h, hh⟩ := C94_compress_pigeonhole c htot
  have : 1 < Nat.card {p : F × F // c [p.1, p.2] = some h} := lt_of_lt_of_le Fintype.one_lt_card hh
  rw [Finite.one_lt_card_iff_nontrivial] at this
  obtain ⟨⟨p, hp⟩, ⟨p', hp'⟩, hne⟩ := this
  exact ⟨p.1, p.2, p'.1, p'.2, h, fun e => hne (Subtype.ext e), hp, hp'⟩

/-- **C94**, trees: for every size from 2 on there are two different sets of that size with one root. -/
theorem C94_roots_collide [Fintype F] [Nontrivial F] (dbg : Bool) (c : List F → Option F)
    (htot : ∀ a b, (c [a, b]).isSome) (n : Nat) (hn : 2 ≤ n) (hn' : n ≤ 2 ^ 63) :
    ∃ s s' : List F, s.length = n ∧ s'.length = n ∧ s ≠ s' ∧ ∃ r, accumulate dbg c s = some r ∧
      accumulate dbg c s' = some r := by
  classical
  have hroot : ∀ s : List F, s ≠ [] → s.length ≤ 2 ^ 63 → ∃ r, accumulate dbg c s = some r := by
    intro s hne hs
    rw [C34_root dbg c s hne hs]
    generalize padded s hne = f
    generalize depth s.length = k
    induction k generalizing f with
    | zero => exact ⟨_, rfl⟩
    | succ k ih =>
      obtain ⟨a, ha⟩ := ih f
      obtain ⟨b, hb⟩ := ih (shift (2 ^ k) f)
      rw [tree, ha, hb]
      exact Option.isSome_iff_exists.mp (htot a b)
  have hex : ∀ x : Fin n → F, ∃ r, accumulate dbg c (List.ofFn x) = some r := fun x =>
    hroot _ (List.ne_nil_of_length_pos (by simp; omega)) (by simpa using hn')
  choose g hg using hex
  have hcard : Fintype.card F < Fintype.card (Fin n → F) := by
    rw [Fintype.card_fun, Fintype.card_fin]
    calc Fintype.card F = Fintype.card F ^ 1 := (pow_one _).symm
      _ < Fintype.card F ^ n := Nat.pow_lt_pow_right Fintype.one_lt_card (by omega)
  obtain ⟨x, x', hne, he⟩ := Fintype.exists_ne_map_eq_of_card_lt g hcard
  exact ⟨List.ofFn x, List.ofFn x', by simp, by simp, fun h => hne (List.ofFn_injective h), g x, hg x, by rw [he]; exact hg x'⟩

/-! ## The shipped instances -/

/-- **C94** for every shipped Poseidon2 instance. -/
theorem C94_poseidon2_shipped (S : Poseidon2Source) (hS : S ∈ Instances.poseidon2) (dbg : Bool) :
    ∃ P, S.params dbg = some P ∧
      (∀ (I : Finset (Fin S.t)) (v : Fin S.t → ZMod S.modulus),
        Nat.card {x : Fin S.t → ZMod S.modulus // ∃ y, Poseidon2.permutation dbg P (List.ofFn x) = some y ∧
          ∀ i ∈ I, y[(i : Nat)]? = some (v i)} = S.modulus ^ (S.t - I.card)) ∧
      ∃ n, 0 < n ∧ ∀ x, x.length = S.t →
        (fun s : Option (List (ZMod S.modulus)) => s.bind (Poseidon2.permutation dbg P))^[n] (some x) = some x := by
  obtain ⟨P, hP, h⟩ := C08_shipped_bijective (dbg := dbg) S hS
  have hF : Fact S.modulus.Prime := ⟨declared_prime (poseidon2_good S hS).declared⟩
  refine ⟨P, hP, fun I v => ?_, C94_order h⟩
  rw [C94_balanced h, ZMod.card]

/-- **C94** for every shipped Poseidon instance. -/
theorem C94_poseidon_shipped (S : PoseidonSource) (hS : S ∈ Instances.poseidon) [Fact S.modulus.Prime] (dbg : Bool) :
    ∃ P, S.params dbg = some P ∧
      (∀ (I : Finset (Fin S.t)) (v : Fin S.t → ZMod S.modulus),
        Nat.card {x : Fin S.t → ZMod S.modulus // ∃ y, Poseidon.permutation dbg P (List.ofFn x) = some y ∧
          ∀ i ∈ I, y[(i : Nat)]? = some (v i)} = S.modulus ^ (S.t - I.card)) ∧
      ∃ n, 0 < n ∧ ∀ x, x.length = S.t →
        (fun s : Option (List (ZMod S.modulus)) => s.bind (Poseidon.permutation dbg P))^[n] (some x) = some x := by
  obtain ⟨P, hP, -, h⟩ := C17_shipped S hS dbg
  refine ⟨P, hP, fun I v => ?_, C94_order h⟩
  rw [C94_balanced h, ZMod.card]

/-- **C94** for every shipped GMiMC instance and every draw. -/
theorem C94_gmimc_shipped (S : Shape) (hS : S ∈ Instances.gmimc) [Fact S.modulus.Prime] (dbg : Bool)
    (s : List (ZMod S.modulus)) (hs : S.rounds_f ≤ s.length) :
    ∃ P r, GmimcParams.new S.t S.d S.rounds_f s = some (P, r) ∧
      (∀ (I : Finset (Fin S.t)) (v : Fin S.t → ZMod S.modulus),
        Nat.card {x : Fin S.t → ZMod S.modulus // ∃ y, Gmimc.permutation dbg P (List.ofFn x) = some y ∧
          ∀ i ∈ I, y[(i : Nat)]? = some (v i)} = S.modulus ^ (S.t - I.card)) ∧
      ∃ n, 0 < n ∧ ∀ x, x.length = S.t →
        (fun s : Option (List (ZMod S.modulus)) => s.bind (Gmimc.permutation dbg P))^[n] (some x) = some x := by
  obtain ⟨P, hP, -, h⟩ := C55_gmimc S hS dbg s hs
  refine ⟨P, _, hP, fun I v => ?_, C94_order h⟩
  rw [C94_balanced h, ZMod.card]

/-- **C94** for the shipped Neptune instances of width 4 and 8, unless the drawn internal matrix is singular. -/
theorem C94_neptune_shipped (S : Shape) (hS : S ∈ Instances.neptune) (h48 : S.t = 4 ∨ S.t = 8) [Fact S.modulus.Prime]
    (dbg : Bool) {s r : List (ZMod S.modulus)} {P : NeptuneParams (ZMod S.modulus)}
    (hP : NeptuneParams.new dbg S.t S.d S.rounds_f S.rounds_p s = some (P, r))
    (hdet : (Spec.neptuneInternal S.t (vec P.mu)).det ≠ 0) :
    (∀ (I : Finset (Fin S.t)) (v : Fin S.t → ZMod S.modulus),
      Nat.card {x : Fin S.t → ZMod S.modulus // ∃ y, Neptune.permutation dbg P (List.ofFn x) = some y ∧
        ∀ i ∈ I, y[(i : Nat)]? = some (v i)} = S.modulus ^ (S.t - I.card)) ∧
    ∃ n, 0 < n ∧ ∀ x, x.length = S.t →
      (fun s : Option (List (ZMod S.modulus)) => s.bind (Neptune.permutation dbg P))^[n] (some x) = some x := by
  have h := (C55_neptune_bijective S hS h48 hP).mpr hdet
  refine ⟨fun I v => ?_, C94_order h⟩
  rw [C94_balanced h, ZMod.card]

/-- **C94**: the compressions of the crate have collisions, whatever the parameters, as soon as the permutation is total
on states of width 3 (4 for Neptune); the last conjunct is for all of them: some digest has `q` preimages. -/
theorem C94_crate_collides [Field F] [Fintype F] [DecidableEq F] (dbg : Bool) (c : List F → Option F)
    (h : (∃ P : Poseidon2Params F, IsPermutation 3 (Poseidon2.permutation dbg P) ∧ c = Poseidon2.compress dbg P) ∨
      (∃ P : PoseidonParams F, IsPermutation 3 (Poseidon.permutation dbg P) ∧ c = Poseidon.compress dbg P) ∨
      (∃ P : GmimcParams F, IsPermutation 3 (Gmimc.permutation dbg P) ∧ c = Gmimc.compress dbg P) ∨
      (∃ P : NeptuneParams F, IsPermutation 4 (Neptune.permutation dbg P) ∧ c = Neptune.compress dbg P)) :
    (∃ a b a' b' h, (a, b) ≠ (a', b') ∧ c [a, b] = some h ∧ c [a', b'] = some h) ∧
      ∃ h : F, Fintype.card F ≤ Nat.card {p : F × F // c [p.1, p.2] = some h} := by
  have key : ∀ a b, (c [a, b]).isSome := by
    intro a b
    rcases h with ⟨P, hP, rfl⟩ | ⟨P, hP, rfl⟩ | ⟨P, hP, rfl⟩ | ⟨P, hP, rfl⟩
    · obtain ⟨y, -, hy⟩ := hP.1 [a, b, 0] rfl
      obtain ⟨z, -, hz⟩ := (C42_poseidon2 P a b []).1 y hy
      rw [hz]; rfl
    · obtain ⟨y, hl, hy⟩ := hP.1 [a, b, 0] rfl
      rw [C42_poseidon, hy]
      match y, hl with
      | _ :: _, _ => rfl
    · obtain ⟨y, hl, hy⟩ := hP.1 [a, b, 0] rfl
      rw [C42_gmimc, hy]
      match y, hl with
      | _ :: _, _ => rfl
    · obtain ⟨y, hl, hy⟩ := hP.1 [a, b, 0, 0] rfl
      rw [C42_neptune, hy]
      match y, hl with
      | _ :: _, _ => rfl
  exact ⟨C94_compress_collides c key, C94_compress_pigeonhole c key⟩

/-! ## Examples -/

private instance : Fact (Nat.Prime 7) := ⟨by decide⟩

/-- A total compression over `ZMod 7`, and two sets of three leaves with one root. -/
example : ∃ s s' : List (ZMod 7), s.length = 3 ∧ s'.length = 3 ∧ s ≠ s' ∧ ∃ r,
    accumulate true (fun l : List (ZMod 7) => match l with | [a, b] => some (a ^ 3 + 2 * b) | _ => none) s = some r ∧
    accumulate true (fun l : List (ZMod 7) => match l with | [a, b] => some (a ^ 3 + 2 * b) | _ => none) s' = some r :=
  C94_roots_collide true _ (fun _ _ => rfl) 3 (by omega) (by omega)

end ZkHash
