import Verif.Theorems.ShippedOther
import Verif.Theorems.NeptuneNew
import Verif.Theorems.NeptuneBranch
import Verif.Proofs.Trail
import Verif.Proofs.PoseidonPlain

set_option autoImplicit false

/-!
# GMiMC and Neptune results depend on the process: C71
-/

namespace ZkHash

variable {dbg : Bool}

open Spec Matrix

theorem gmimc_two_rounds {S : Shape} (hS : S ∈ Instances.gmimc) : 2 ≤ S.rounds_f := by
  have : (Instances.gmimc.all fun S => decide (2 ≤ S.rounds_f)) = true := by decide +kernel
  simpa using List.all_eq_true.mp this S hS

theorem neptune_two_rounds {S : Shape} (hS : S ∈ Instances.neptune) : 2 ≤ S.rounds_f := by
  have : (Instances.neptune.all fun S => decide (2 ≤ S.rounds_f)) = true := by decide +kernel
  simpa using List.all_eq_true.mp this S hS

theorem getD_set_self {α : Type _} (l : List α) {i : Nat} (h : i < l.length) (a b : α) : (l.set i a).getD i b = a := by
  simp [List.getD_eq_getElem?_getD, h]

theorem getD_set_of_ne {α : Type _} (l : List α) {i j : Nat} (h : i ≠ j) (a b : α) :
    (l.set i a).getD j b = l.getD j b := by
  simp [List.getD_eq_getElem?_getD, List.getElem?_set_ne h]

/-- **C71** for GMiMC: take a shipped parameter set, an input, and any field element `v`. Whatever the generator delivers
otherwise, there is a value for one of the drawn constants (the last but one) with which the first word of the result
is `v`. -/
theorem C71_gmimc (S : Shape) (hS : S ∈ Instances.gmimc) [Fact S.modulus.Prime] (s : List (ZMod S.modulus))
    (hs : S.rounds_f ≤ s.length) (x : List (ZMod S.modulus)) (hx : x.length = S.t) (v : ZMod S.modulus) :
    ∃ (c : ZMod S.modulus) (P : GmimcParams (ZMod S.modulus)) (out : List (ZMod S.modulus)),
      GmimcParams.new S.t S.d S.rounds_f (s.set (S.rounds_f - 2) c) = some (P, s.drop S.rounds_f) ∧
        Gmimc.permutation dbg P x = some out ∧ out.head? = some v := by
  obtain ⟨-, hd, ht, hr⟩ := gmimc_good S hS
  have hr2 := gmimc_two_rounds hS
  have hsurj := (C45_sbox_bijective.2.2.2 S hS).surjective
  obtain ⟨n, hn⟩ : ∃ n, S.rounds_f = n + 2 := ⟨S.rounds_f - 2, by omega⟩
  obtain ⟨k, hk⟩ : ∃ k, S.t = k + 2 := ⟨S.t - 2, by omega⟩
  rw [hk] at hx
  obtain ⟨x, rfl⟩ := eq_ofFn x hx
  obtain ⟨z, hz⟩ : ∃ z : Fin (k + 1 + 1) → ZMod S.modulus, z =
    rounds (fun r y => rotate (feistel S.d (vec s r) y)) 0 n x := ⟨_, rfl⟩
  obtain ⟨w, hw⟩ := hsurj (v - z (0 - 1))
  beta_reduce at hw
  refine ⟨w - z 0, ?_⟩
  rw [hn, Nat.add_sub_cancel, hk]
  have hlen : n + 2 ≤ (s.set n (w - z 0)).length := by rw [List.length_set]; omega
  obtain ⟨h1, h2⟩ := C21_new (k + 2) S.d (n + 2) (s.set n (w - z 0)) hlen
  cases hnew : GmimcParams.new (k + 2) S.d (n + 2) (s.set n (w - z 0)) with
  | none => exact absurd (h1.mp hnew) (by omega)
  | some p =>
    obtain ⟨P, rest⟩ := p
    obtain ⟨hP, hl, hrest⟩ := h2 P rest hnew
    rw [List.drop_set, if_pos (by omega)] at hrest
    have hperm := C19_permutation_eq_spec (s := k + 1) (n := n + 1) dbg P (by rw [hP]) (by rw [hP]) (by rw [hP]; exact hd)
      (by rw [hl, hP]) x
    refine ⟨P, _, by rw [hrest], hperm, ?_⟩
    have hc : ∀ r, r < n + 2 → vec P.round_constants r = (s.set n (w - z 0)).getD r 0 := by
      intro r hr
      rw [hP]
      simp only [vec, List.getD_eq_getElem?_getD, List.getElem?_take]
      rw [if_pos hr]
    have hcn : vec P.round_constants n = w - z 0 := by
      rw [hc n (by omega), getD_set_self _ (by omega)]
    have hcr : ∀ r < n, vec P.round_constants r = vec s r := by
      intro r hr
      rw [hc r (by omega), getD_set_of_ne _ (by omega)]
      rfl
    have hPd : P.d = S.d := by rw [hP]
    have hstate : rounds (fun r y => rotate (feistel S.d (vec P.round_constants r) y)) 0 n x = z := by
      rw [hz]
      exact rounds_congr _ _ 0 n (fun r _ hr y => by rw [hcr r (by omega)]) x
    rw [List.ofFn_succ, List.head?_cons, Option.some.injEq, hPd]
    show rounds (fun r y => rotate (feistel S.d (vec P.round_constants r) y)) 0 (n + 1) x 0 = v
    rw [rounds, Nat.zero_add, hstate]
    show (if (0 - 1 : Fin (k + 1 + 1)) = 0 then z 0 else z (0 - 1) + (z 0 + vec P.round_constants n) ^ S.d) = v
    have hne : (0 - 1 : Fin (k + 1 + 1)) ≠ 0 := by
      simp
    rw [if_neg hne, hcn, add_sub_cancel, hw]
    ring

/-- **C71** for GMiMC, compression: the compression of any two leaves, over the shipped parameter sets of width 3, is
every field element, depending on one of the constants drawn when the process first uses the parameter set. -/
theorem C71_gmimc_compress (S : Shape) (hS : S ∈ Instances.gmimc) (h3 : S.t = 3) [Fact S.modulus.Prime]
    (s : List (ZMod S.modulus)) (hs : S.rounds_f ≤ s.length) (a b v : ZMod S.modulus) :
    ∃ (c : ZMod S.modulus) (P : GmimcParams (ZMod S.modulus)),
      GmimcParams.new S.t S.d S.rounds_f (s.set (S.rounds_f - 2) c) = some (P, s.drop S.rounds_f) ∧
        Gmimc.compress dbg P [a, b] = some v := by
  obtain ⟨c, P, out, h1, h2, h4⟩ := C71_gmimc (dbg := dbg) S hS s hs [a, b, 0] (by rw [h3]; rfl) v
  refine ⟨c, P, h1, ?_⟩
  rw [C42_gmimc, h2]
  exact h4

/-- **C71** for Neptune: take a shipped parameter set, any result of its constructor, an input, and any state `y`. There
is a row of constants such that drawing it in the last place, and everything else as before, gives parameters whose
permutation maps the input to `y`. -/
theorem C71_neptune (S : Shape) (hS : S ∈ Instances.neptune) [Fact S.modulus.Prime] {s r : List (ZMod S.modulus)}
    {P : NeptuneParams (ZMod S.modulus)} (h : NeptuneParams.new dbg S.t S.d S.rounds_f S.rounds_p s = some (P, r))
    (x y : List (ZMod S.modulus)) (hx : x.length = S.t) (hy : y.length = S.t) :
    ∃ row s', row.length = S.t ∧ s'.length = s.length ∧
      NeptuneParams.new dbg S.t S.d S.rounds_f S.rounds_p s' =
        some ({ P with round_constants := P.round_constants.dropLast ++ [row] }, r) ∧
      Neptune.permutation dbg { P with round_constants := P.round_constants.dropLast ++ [row] } x = some y := by
  obtain ⟨-, hd, hev, ht, hf, hfit⟩ := neptune_good S hS
  have hf2 := neptune_two_rounds hS
  clear hS
  obtain ⟨k, hk⟩ : ∃ k, S.t = 2 * k := ⟨S.t / 2, by omega⟩
  rw [hk] at hx hy h ⊢
  obtain ⟨x, rfl⟩ := eq_ofFn x hx
  obtain ⟨y, rfl⟩ := eq_ofFn y hy
  obtain ⟨hd', hf', hdbg, g1, g2, g3, g4, g5, g6, g7, g8, g9, g10, E, N, γ, g11, g12, g13, g14, g15⟩ :=
    C51_constructor_iff.mp h
  obtain ⟨M, hM, hspec⟩ := C25_permutation_eq_spec (by omega) h hfit
  rw [Nat.mod_eq_of_lt hfit] at g7
  obtain ⟨m, hm⟩ : ∃ m, S.rounds_f / 2 = m + 1 := ⟨S.rounds_f / 2 - 1, by omega⟩
  have hlast : S.rounds_f + S.rounds_p = m + 1 + S.rounds_p + m + 1 := by omega
  have hne : P.round_constants ≠ [] := by
    intro he
    rw [he] at g7
    simp at g7
    omega
  -- the state before the last row is added
  obtain ⟨z, hz⟩ : ∃ z : Fin (2 * k) → ZMod S.modulus, z =
    M *ᵥ onPairs (neptunePair P.abc.2.2) (rounds (fun r => neptuneExtRound M P.abc.2.2 (fun i : Fin (2 * k) =>
      tab P.round_constants r i)) (m + 1 + S.rounds_p) m (rounds (fun r => neptuneIntRound
        (neptuneInternal (2 * k) (vec P.mu)) S.d (fun i : Fin (2 * k) => tab P.round_constants r i)) (m + 1) S.rounds_p
        (rounds (fun r => neptuneExtRound M P.abc.2.2 (fun i : Fin (2 * k) => tab P.round_constants r i)) 0 (m + 1)
          (M *ᵥ x)))) := ⟨_, rfl⟩
  obtain ⟨rc', hrc'⟩ : ∃ rc', rc' = P.round_constants.dropLast ++ [List.ofFn (y - z)] := ⟨_, rfl⟩
  have hlen' : rc'.length = P.round_constants.length := by
    rw [hrc', List.length_append, List.length_dropLast, List.length_singleton]
    omega
  have hnew : NeptuneParams.new dbg (2 * k) S.d S.rounds_f S.rounds_p (rc'.flatten ++ (E ++ (N ++ γ :: r))) =
      some ({ P with round_constants := rc' }, r) := by
    refine C51_constructor_iff.mpr ⟨hd', hf', hdbg, g1, g2, g3, g4, g5, g6, ?_, ?_, g9, g10, E, N, γ, rfl, g12, g13,
      g14, g15⟩
    · rw [Nat.mod_eq_of_lt hfit, ← g7]
      exact hlen'
    · intro row hrow
      rw [hrc'] at hrow
      rcases List.mem_append.mp hrow with hmem | hmem
      · exact g8 row (List.dropLast_subset _ hmem)
      · rw [List.mem_singleton.mp hmem, List.length_ofFn]
  obtain ⟨M', hM', hspec'⟩ := C25_permutation_eq_spec (by omega) hnew hfit
  obtain rfl : M' = M := rowsOf_injective (hM'.symm.trans hM)
  refine ⟨List.ofFn (y - z), rc'.flatten ++ (E ++ (N ++ γ :: r)), List.length_ofFn, ?_, ?_, ?_⟩
  · rw [g11]
    simp only [List.length_append]
    congr 1
    have e : ∀ T : List (List (ZMod S.modulus)), (∀ row ∈ T, row.length = 2 * k) → T.flatten.length = T.length * (2 * k) := by
      intro T hT
      induction T with
      | nil => simp
      | cons a T ih =>
        rw [List.flatten_cons, List.length_append, ih fun row hr => hT row (List.mem_cons_of_mem _ hr),
          hT a List.mem_cons_self, List.length_cons]
        ring
    rw [e _ g8, e rc' ?_, hlen']
    intro row hrow
    rw [hrc'] at hrow
    rcases List.mem_append.mp hrow with hmem | hmem
    · exact g8 row (List.dropLast_subset _ hmem)
    · rw [List.mem_singleton.mp hmem, List.length_ofFn]
  · rw [hnew, hrc']
  · rw [← hrc', hspec']
    congr 2
    have htab : ∀ r, r < m + 1 + S.rounds_p + m → ∀ i, tab rc' r i = tab P.round_constants r i := by
      intro r hr i
      unfold tab
      congr 1
      rw [hrc', List.getD_eq_getElem?_getD, List.getD_eq_getElem?_getD,
        List.getElem?_append_left (by rw [List.length_dropLast]; omega), List.getElem?_dropLast,
        if_pos (by omega)]
    have htabl : ∀ i : Fin (2 * k), tab rc' (m + 1 + S.rounds_p + m) i = (y - z) i := by
      intro i
      unfold tab
      rw [hrc', List.getD_eq_getElem?_getD (l := _ ++ _), List.getElem?_append_right (by rw [List.length_dropLast]; omega)]
      rw [List.length_dropLast, show m + 1 + S.rounds_p + m - (P.round_constants.length - 1) = 0 by omega]
      simp
    have hz' : z = M' *ᵥ onPairs (neptunePair P.abc.2.2) (rounds (fun r => neptuneExtRound M' P.abc.2.2 (fun i : Fin (2 * k) =>
        tab rc' r i)) (m + 1 + S.rounds_p) m (rounds (fun r => neptuneIntRound
          (neptuneInternal (2 * k) (vec P.mu)) S.d (fun i : Fin (2 * k) => tab rc' r i)) (m + 1) S.rounds_p
          (rounds (fun r => neptuneExtRound M' P.abc.2.2 (fun i : Fin (2 * k) => tab rc' r i)) 0 (m + 1)
            (M' *ᵥ x)))) := by
      rw [hz]
      congr 2
      rw [rounds_congr _ _ (m + 1 + S.rounds_p) m (fun r _ hr u => by
          rw [show (fun i : Fin (2 * k) => tab P.round_constants r i) = fun i : Fin (2 * k) => tab rc' r i from
            funext fun i => (htab r (by omega) i).symm]),
        rounds_congr _ _ (m + 1) S.rounds_p (fun r _ hr u => by
          rw [show (fun i : Fin (2 * k) => tab P.round_constants r i) = fun i : Fin (2 * k) => tab rc' r i from
            funext fun i => (htab r (by omega) i).symm]),
        rounds_congr _ _ 0 (m + 1) (fun r _ hr u => by
          rw [show (fun i : Fin (2 * k) => tab P.round_constants r i) = fun i : Fin (2 * k) => tab rc' r i from
            funext fun i => (htab r (by omega) i).symm])]
    unfold neptune
    dsimp only
    rw [hm, rounds]
    unfold neptuneExtRound at hz' ⊢
    rw [← hz']
    funext i
    rw [Pi.add_apply, htabl i]
    simp

/-- **C71** for Neptune, compression: over the shipped parameter sets of width 4, the compression of any two leaves is
every field element, depending on what the process drew. -/
theorem C71_neptune_compress (S : Shape) (hS : S ∈ Instances.neptune) (h4 : S.t = 4) [Fact S.modulus.Prime]
    {s r : List (ZMod S.modulus)} {P : NeptuneParams (ZMod S.modulus)}
    (h : NeptuneParams.new dbg S.t S.d S.rounds_f S.rounds_p s = some (P, r)) (a b v : ZMod S.modulus) :
    ∃ s' P', s'.length = s.length ∧ NeptuneParams.new dbg S.t S.d S.rounds_f S.rounds_p s' = some (P', r) ∧
      Neptune.compress dbg P' [a, b] = some v := by
  obtain ⟨row, s', -, h2, h3, h5⟩ := C71_neptune S hS h [a, b, 0, 0] [v, 0, 0, 0] (by rw [h4]; rfl) (by rw [h4]; rfl)
  refine ⟨s', _, h2, h3, ?_⟩
  simp only [Neptune.compress, List.getElem?_cons_zero, List.getElem?_cons_succ, Option.bind_eq_bind, Option.bind_some, h5]

/-- There are shipped parameter sets of the widths that the compressions need. -/
example : (Instances.gmimc.any fun S => S.t == 3) = true ∧ (Instances.neptune.any fun S => S.t == 4) = true := by
  decide +kernel

end ZkHash
