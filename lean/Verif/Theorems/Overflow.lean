import Verif.Theorems.Poseidon2
import Verif.Theorems.Neptune
import Verif.Proofs.PoseidonPlain

set_option autoImplicit false

/-!
# Round numbers whose sum does not fit a `usize` (C66)

`Poseidon2Params::new` and `NeptuneParams::new` compute `rounds_f + rounds_p`, and the permutations compute
`rounds_f_beginning + rounds_p`. A debug build panics in the constructor if the first sum does not fit; a release build
wraps both.
-/

namespace ZkHash

open Spec Matrix

set_option linter.unusedSectionVars false

/-- The rows of round constants that are read when `rb + rp` wraps to `w`: rows `0 .. rb` by the first full rounds, and then
rows `w .. w + rb` by the last ones. -/
def wrappedRow (rb w r : Nat) : Nat := if r < rb then r else r - rb + w

theorem wrapped_rows {α : Type _} (rc : List α) {rb w : Nat} (hlen : w + rb ≤ rc.length) :
    (rc.take rb ++ (rc.drop w).take rb).length = 2 * rb ∧
    ∀ r, r < 2 * rb → (rc.take rb ++ (rc.drop w).take rb)[r]? = rc[wrappedRow rb w r]? := by
  have h1 : (rc.take rb).length = rb := by rw [List.length_take]; omega
  have h2 : ((rc.drop w).take rb).length = rb := by rw [List.length_take, List.length_drop]; omega
  refine ⟨by rw [List.length_append, h1, h2]; omega, fun r hr => ?_⟩
  unfold wrappedRow
  by_cases h : r < rb
  · rw [if_pos h, List.getElem?_append_left (by omega), List.getElem?_take_of_lt h]
  · rw [if_neg h, List.getElem?_append_right (by omega), h1, List.getElem?_take_of_lt (by omega), List.getElem?_drop]
    congr 1
    omega

theorem foldlM_shift {σ : Type _} (f g : σ → Nat → Option σ) (a b n : Nat)
    (h : ∀ s i, i < n → f s (a + i) = g s (b + i)) (s : σ) :
    (List.range' a n).foldlM f s = (List.range' b n).foldlM g s := by
  rw [List.range'_eq_map_range, List.range'_eq_map_range, List.foldlM_map, List.foldlM_map]
  exact foldlM_congr _ _ _ (fun s i hi => h s i (List.mem_range.mp hi)) s

theorem uadd_wraps {a b : Nat} (ha : a < 2 ^ 64) (hb : b < 2 ^ 64) (h : 2 ^ 64 ≤ a + b) :
    uadd false a b = some (a + b - 2 ^ 64) :=
  uadd_some_iff.mpr ⟨fun h => absurd h Bool.false_ne_true, by omega⟩

section poseidon2
variable {F : Type _} [CommRing F]

/-- **C66**, Poseidon2, release build, `rounds_f / 2 + rounds_p` not below `2^64`: the constructor returns, and the
permutation is the Poseidon2 permutation without any partial round, with the rows `0 .. rounds_f / 2` and
`w .. w + rounds_f / 2` of the table for its full rounds, `w` being the wrapped sum. -/
theorem C66_poseidon2_no_partial_rounds {t d rounds_f rounds_p : Nat} {diag : List F} (mat_internal : List (List F))
    {rc : List (List F)} (ht : Supported t) (hd : d = 3 ∨ d = 5 ∨ d = 7) (heven : rounds_f % 2 = 0)
    (hf : rounds_f < 2 ^ 64) (hp : rounds_p < 2 ^ 64) (hover : 2 ^ 64 ≤ rounds_f / 2 + rounds_p)
    (hdiag : 4 ≤ t → t ≤ diag.length) (hrow : ∀ row ∈ rc, t ≤ row.length)
    (hlen : rounds_f + rounds_p - 2 ^ 64 ≤ rc.length) :
    ∃ P, Poseidon2Params.new false t d rounds_f rounds_p diag mat_internal rc = some P ∧
      ∀ x : Fin t → F, Poseidon2.permutation false P (List.ofFn x) =
        some (List.ofFn (poseidon2 (externalMatrix t) (internalMatrix t (vec diag)) d (rounds_f / 2) 0
          (fun r => tab rc (wrappedRow (rounds_f / 2) (rounds_f / 2 + rounds_p - 2 ^ 64) r)) x)) := by
  obtain ⟨rb, rfl⟩ : ∃ rb, rounds_f = 2 * rb := ⟨rounds_f / 2, by omega⟩
  rw [show 2 * rb / 2 = rb by omega] at *
  obtain ⟨w, hw⟩ : ∃ w, w = rb + rounds_p - 2 ^ 64 := ⟨_, rfl⟩
  rw [← hw]
  have hu : uadd false rb rounds_p = some w := by rw [hw]; exact uadd_wraps (by omega) hp hover
  have hu' : uadd false (2 * rb) rounds_p = some (w + rb) := by
    rw [uadd_wraps hf hp (by omega)]
    exact congrArg some (by omega)
  have hu0 : uadd false rb 0 = some rb := uadd_fits false (by omega)
  obtain ⟨hl', hrows'⟩ := wrapped_rows rc (rb := rb) (w := w) (by omega)
  set rc' := rc.take rb ++ (rc.drop w).take rb with hrc'
  let P : Poseidon2Params F := ⟨t, d, rb, rounds_p, rb, w + rb, diag, mat_internal, rc⟩
  let Q : Poseidon2Params F := ⟨t, d, rb, 0, rb, 2 * rb, diag, mat_internal, rc'⟩
  have hP : Poseidon2Params.new false t d (2 * rb) rounds_p diag mat_internal rc = some P := by
    unfold Poseidon2Params.new assertThat
    rw [hu']
    rcases hd with rfl | rfl | rfl <;> simp [P]
  have hfit : 2 * rb + 0 < 2 ^ 64 := by omega
  have hQ : Poseidon2Params.new false t d (2 * rb) 0 diag mat_internal rc' = some Q := by
    unfold Poseidon2Params.new assertThat
    rw [uadd_fits false hfit]
    rcases hd with rfl | rfl | rfl <;> simp [Q]
  have hs : WellShaped t d (2 * rb) 0 diag rc' := by
    refine ⟨ht, hd, hdiag, by omega, fun row h => ?_, hfit⟩
    rcases List.mem_append.mp h with h | h
    · exact hrow row (List.mem_of_mem_take h)
    · exact hrow row (List.mem_of_mem_drop (List.mem_of_mem_take h))
  refine ⟨P, hP, fun x => ?_⟩
  have hfull : ∀ (s : List F) (r : Nat), r < 2 * rb →
      Poseidon2.fullRound P s (wrappedRow rb w r) = Poseidon2.fullRound Q s r := by
    intro s r hr
    unfold Poseidon2.fullRound
    show (do let rc ← rc[wrappedRow rb w r]?; _) = (do let rc ← rc'[r]?; _)
    rw [hrows' r hr]
  have hPQ : Poseidon2.permutation false P (List.ofFn x) = Poseidon2.permutation false Q (List.ofFn x) := by
    unfold Poseidon2.permutation
    show (do
        assertThat ((List.ofFn x).length == t)
        let state ← Poseidon2.matmulExternal t (List.ofFn x)
        let state ← (List.range rb).foldlM (Poseidon2.fullRound P) state
        let p_end ← uadd false rb rounds_p
        let state ← (List.range' rb (p_end - rb)).foldlM (Poseidon2.partialRound P) state
        (List.range' p_end (w + rb - p_end)).foldlM (Poseidon2.fullRound P) state) = (do
        assertThat ((List.ofFn x).length == t)
        let state ← Poseidon2.matmulExternal t (List.ofFn x)
        let state ← (List.range rb).foldlM (Poseidon2.fullRound Q) state
        let p_end ← uadd false rb 0
        let state ← (List.range' rb (p_end - rb)).foldlM (Poseidon2.partialRound Q) state
        (List.range' p_end (2 * rb - p_end)).foldlM (Poseidon2.fullRound Q) state)
    rw [hu, hu0]
    simp only [Option.bind_eq_bind, Option.bind_some, Nat.sub_self,
      show w - rb = 0 by omega, show w + rb - w = rb by omega, show 2 * rb - rb = rb by omega, List.range'_zero,
      List.foldlM_nil, Option.pure_def]
    congr 1
    funext _
    congr 1
    funext s
    rw [foldlM_congr (Poseidon2.fullRound P) (Poseidon2.fullRound Q) (List.range rb) (fun s i hi => by
      rw [List.mem_range] at hi
      rw [← hfull s i (by omega)]
      unfold wrappedRow
      rw [if_pos hi])]
    congr 1
    funext s
    refine foldlM_shift _ _ w rb rb (fun s i hi => ?_) s
    rw [← hfull s (rb + i) (by omega)]
    unfold wrappedRow
    rw [if_neg (by omega)]
    congr 1
    omega
  rw [hPQ, C01_permutation_eq_spec hQ hs x]
  rw [show 2 * rb / 2 = rb by omega]
  refine congrArg some (congrArg List.ofFn ?_)
  have htab : ∀ r, r < 2 * rb → ∀ i, tab rc' r i = tab rc (wrappedRow rb w r) i := by
    intro r hr i
    unfold tab
    rw [List.getD_eq_getElem?_getD (l := rc'), hrows' r hr, ← List.getD_eq_getElem?_getD]
  unfold poseidon2
  simp only [rounds, Nat.add_zero]
  rw [rounds_congr _ (fun r => fullRound (externalMatrix t) d (fun i : Fin t => tab rc (wrappedRow rb w r) i)) 0 rb
    (fun r _ hr x => by simp only [htab r (by omega)])]
  exact rounds_congr _ _ rb rb (fun r _ hr x => by simp only [htab r (by omega)]) _

/-- **C66**, Poseidon2, release build, `rounds_f + rounds_p` wraps but `rounds_f / 2 + rounds_p` does not: the constructor
returns, and every call panics, for every table that a `Vec` can hold (fewer than `2^63` rows). -/
theorem C66_poseidon2_panics {t d rounds_f rounds_p : Nat} (diag : List F) (mat_internal : List (List F))
    {rc : List (List F)} (hd : d = 3 ∨ d = 5 ∨ d = 7 ∨ d = 11) (heven : rounds_f % 2 = 0)
    (hf : rounds_f < 2 ^ 64) (hover : 2 ^ 64 ≤ rounds_f + rounds_p) (hfit : rounds_f / 2 + rounds_p < 2 ^ 64)
    (hlen : rc.length < 2 ^ 63) :
    ∃ P, Poseidon2Params.new false t d rounds_f rounds_p diag mat_internal rc = some P ∧
      ∀ x : List F, Poseidon2.permutation false P x = none := by
  cases hP : Poseidon2Params.new false t d rounds_f rounds_p diag mat_internal rc with
  | none =>
    have := (C05_new_panics_iff ..).mp hP
    simp only [Bool.false_eq_true, false_and, or_false] at this
    omega
  | some P =>
    have : P.rounds_f_beginning = rounds_f / 2 ∧ P.rounds_p = rounds_p ∧ P.round_constants = rc := by
      unfold Poseidon2Params.new at hP
      simp only [Option.bind_eq_bind, Option.bind_eq_some_iff, Option.pure_def, Option.some.injEq] at hP
      obtain ⟨_, _, _, _, _, _, rfl⟩ := hP
      exact ⟨rfl, rfl, rfl⟩
    obtain ⟨h1, h2, h3⟩ := this
    refine ⟨P, rfl, fun x => C07_short_rows_panic P (rounds_f / 2 + rounds_p - 1) (by omega)
      (Or.inr ⟨by omega, ?_⟩) x⟩
    rw [h3, List.getD_eq_getElem?_getD, List.getElem?_eq_none (by omega)]
    rfl

end poseidon2

section neptune
variable {F : Type} [Field F] [DecidableEq F]

/-- **C66**, Neptune, release build, `rounds_f / 2 + rounds_p` not below `2^64`: if the constructor returns, the permutation
is the Neptune permutation without any internal round, with the rows `0 .. rounds_f / 2` and `w .. w + rounds_f / 2` of the
drawn constants for its external rounds. -/
theorem C66_neptune_no_internal_rounds {k d rounds_f rounds_p : Nat} (hk : 0 < k) {s r : List F} {P : NeptuneParams F}
    (h : NeptuneParams.new false (2 * k) d rounds_f rounds_p s = some (P, r))
    (hf : rounds_f < 2 ^ 64) (hp : rounds_p < 2 ^ 64) (hover : 2 ^ 64 ≤ rounds_f / 2 + rounds_p) :
    ∃ M : Matrix (Fin (2 * k)) (Fin (2 * k)) F, P.m_e = rowsOf M ∧ ∀ x : Fin (2 * k) → F,
      Neptune.permutation false P (List.ofFn x) = some (List.ofFn (neptune M (neptuneInternal (2 * k) (vec P.mu)) d
        P.abc.2.2 (rounds_f / 2) 0
        (fun r => tab P.round_constants (wrappedRow (rounds_f / 2) (rounds_f / 2 + rounds_p - 2 ^ 64) r)) x)) := by
  obtain ⟨A, B, hm, h4, h8⟩ := NeptuneParams.ext_of_new h
  refine ⟨_, hm.m_e_eq, fun x => ?_⟩
  have heven := hm.even
  obtain ⟨rb, rfl⟩ : ∃ rb, rounds_f = 2 * rb := ⟨rounds_f / 2, by omega⟩
  have hrb := hm.f_eq
  have hrp := hm.p_eq
  rw [show 2 * rb / 2 = rb by omega] at *
  obtain ⟨w, hw⟩ : ∃ w, w = rb + rounds_p - 2 ^ 64 := ⟨_, rfl⟩
  rw [← hw]
  have hu : uadd false rb rounds_p = some w := by rw [hw]; exact uadd_wraps (by omega) hp hover
  have hu0 : uadd false rb 0 = some rb := uadd_fits false (by omega)
  have hlen := hm.rc_len
  have hrounds := hm.rounds_eq
  rw [show (2 * rb + rounds_p) % 2 ^ 64 = w + rb by omega] at hlen hrounds
  set rc := P.round_constants with hrc
  obtain ⟨hl', hrows'⟩ := wrapped_rows rc (rb := rb) (w := w) (by omega)
  set rc' := rc.take rb ++ (rc.drop w).take rb with hrc'
  let Q : NeptuneParams F := { P with rounds_p := 0, rounds := 2 * rb, round_constants := rc' }
  have hQ : NeptuneParams.Made k d (2 * rb) 0 Q A B :=
    { degree := hm.degree
      even := hm.even
      t_eq := hm.t_eq
      d_eq := hm.d_eq
      f_eq := hm.f_eq
      p_eq := rfl
      rounds_eq := by show 2 * rb = _; omega
      rc_len := by show rc'.length = _; omega
      rc_row := by
        intro row h
        rcases List.mem_append.mp h with h | h
        · exact hm.rc_row row (List.mem_of_mem_take h)
        · exact hm.rc_row row (List.mem_of_mem_drop (List.mem_of_mem_take h))
      m_e_eq := hm.m_e_eq
      mu_len := hm.mu_len
      mu_ne := hm.mu_ne }
  have hfull : ∀ (s : List F) (r : Nat), r < 2 * rb →
      Neptune.externalRound P s (wrappedRow rb w r) = Neptune.externalRound Q s r := by
    intro s r hr
    unfold Neptune.externalRound
    show (do
        let o ← Neptune.externalSbox P.abc.2.2 s
        let o ← Neptune.externalMatmul P o
        let c ← rc[wrappedRow rb w r]?
        pure (Neptune.addRc o c)) = (do
        let o ← Neptune.externalSbox P.abc.2.2 s
        let o ← Neptune.externalMatmul P o
        let c ← rc'[r]?
        pure (Neptune.addRc o c))
    rw [hrows' r hr]
  have hPQ : Neptune.permutation false P (List.ofFn x) = Neptune.permutation false Q (List.ofFn x) := by
    unfold Neptune.permutation
    show (do
        assertThat ((List.ofFn x).length == P.t)
        let state ← Neptune.externalMatmul P (List.ofFn x)
        let state ← (List.range P.rounds_f_beginning).foldlM (Neptune.externalRound P) state
        let p_end ← uadd false P.rounds_f_beginning P.rounds_p
        let state ← (List.range' P.rounds_f_beginning (p_end - P.rounds_f_beginning)).foldlM (Neptune.internalRound P) state
        (List.range' p_end (P.rounds - p_end)).foldlM (Neptune.externalRound P) state) = (do
        assertThat ((List.ofFn x).length == P.t)
        let state ← Neptune.externalMatmul P (List.ofFn x)
        let state ← (List.range P.rounds_f_beginning).foldlM (Neptune.externalRound Q) state
        let p_end ← uadd false P.rounds_f_beginning 0
        let state ← (List.range' P.rounds_f_beginning (p_end - P.rounds_f_beginning)).foldlM (Neptune.internalRound Q) state
        (List.range' p_end (2 * rb - p_end)).foldlM (Neptune.externalRound Q) state)
    rw [hrb, hrp, hrounds, hu, hu0]
    simp only [Option.bind_eq_bind, Option.bind_some, Nat.sub_self,
      show w - rb = 0 by omega, show w + rb - w = rb by omega, show 2 * rb - rb = rb by omega, List.range'_zero,
      List.foldlM_nil, Option.pure_def]
    congr 1
    funext _
    congr 1
    funext s
    rw [foldlM_congr (Neptune.externalRound P) (Neptune.externalRound Q) (List.range rb) (fun s i hi => by
      rw [List.mem_range] at hi
      rw [← hfull s i (by omega)]
      unfold wrappedRow
      rw [if_pos hi])]
    congr 1
    funext s
    refine foldlM_shift _ _ w rb rb (fun s i hi => ?_) s
    rw [← hfull s (rb + i) (by omega)]
    unfold wrappedRow
    rw [if_neg (by omega)]
    congr 1
    omega
  rw [hPQ, Neptune.permutation_ofFn hk hQ h4 h8 (by omega) x]
  rw [show 2 * rb / 2 = rb by omega]
  refine congrArg some (congrArg List.ofFn ?_)
  have htab : ∀ r, r < 2 * rb → ∀ i, tab rc' r i = tab rc (wrappedRow rb w r) i := by
    intro r hr i
    unfold tab
    rw [List.getD_eq_getElem?_getD (l := rc'), hrows' r hr, ← List.getD_eq_getElem?_getD]
  unfold neptune
  simp only [rounds, Nat.add_zero]
  rw [rounds_congr _ (fun r => neptuneExtRound (parityMatrix A B) P.abc.2.2
    (fun i : Fin (2 * k) => tab rc (wrappedRow rb w r) i)) 0 rb (fun r _ hr x => by
      show neptuneExtRound _ _ (fun i : Fin (2 * k) => tab rc' r i) x = _
      simp only [htab r (by omega)]; rfl)]
  exact rounds_congr _ _ rb rb (fun r _ hr x => by
    show neptuneExtRound _ _ (fun i : Fin (2 * k) => tab rc' r i) x = _
    simp only [htab r (by omega)]; rfl) _

/-- **C66**, Neptune, release build, `rounds_f + rounds_p` wraps but `rounds_f / 2 + rounds_p` does not: fewer rows of
constants are drawn than there are external rounds at the beginning, and every call panics. -/
theorem C66_neptune_panics {t d rounds_f rounds_p : Nat} {s r : List F} {P : NeptuneParams F}
    (h : NeptuneParams.new false t d rounds_f rounds_p s = some (P, r))
    (hover : 2 ^ 64 ≤ rounds_f + rounds_p) (hfit : rounds_f / 2 + rounds_p < 2 ^ 64) (x : List F) :
    Neptune.permutation false P x = none := by
  obtain ⟨k, rfl⟩ : ∃ k, t = 2 * k := ⟨t / 2, by have := NeptuneParams.new_even h; omega⟩
  obtain ⟨A, B, hm, -, -⟩ := NeptuneParams.ext_of_new h
  have hnone : ∀ s, (List.range P.rounds_f_beginning).foldlM (Neptune.externalRound P) s = none := by
    intro s
    have heven := hm.even
    have hlen := hm.rc_len
    have hf := hm.f_eq
    refine foldlM_none_of_mem _ (fun _ => True) _ P.round_constants.length (List.mem_range.mpr (by omega))
      (fun _ _ _ _ _ _ => trivial) (fun s _ => ?_) s trivial
    unfold Neptune.externalRound
    rw [List.getElem?_eq_none le_rfl]
    cases Neptune.externalSbox P.abc.2.2 s with
    | none => rfl
    | some o => cases ho : Neptune.externalMatmul P o <;> simp [ho]
  unfold Neptune.permutation
  simp only [Option.bind_eq_bind, hnone, Option.bind_none]
  cases assertThat (x.length == P.t) with
  | none => rfl
  | some _ => cases Neptune.externalMatmul P x <;> rfl

end neptune

section examples

/-- Witness: `Poseidon2Params::new(3, 5, 8, usize::MAX - 1, …)` in a release build: 8 full rounds with the rows 0-3 and 2-5
of a table of six rows, no partial round. -/
example : ∃ P : Poseidon2Params ℚ, Poseidon2Params.new false 3 5 8 (2 ^ 64 - 2) [] [] (List.replicate 6 [1, 2, 3]) = some P ∧
    ∃ c : Nat → Nat → ℚ, ∀ x : Fin 3 → ℚ, Poseidon2.permutation false P (List.ofFn x) =
      some (List.ofFn (poseidon2 (externalMatrix 3) (internalMatrix 3 (vec [])) 5 4 0 c x)) := by
  obtain ⟨P, hP, h⟩ := C66_poseidon2_no_partial_rounds (F := ℚ) (t := 3) (d := 5) (rounds_f := 8)
    (rounds_p := 2 ^ 64 - 2) (diag := []) (rc := List.replicate 6 [1, 2, 3]) [] (by unfold Supported; omega) (by omega)
    (by omega) (by omega) (by omega) (by omega) (fun h => absurd h (by omega))
    (fun row h => by rw [List.eq_of_mem_replicate h]; simp) (by simp)
  exact ⟨P, hP, _, h⟩

/-- Witness: 8 full rounds and `usize::MAX - 5` partial rounds: every call panics. -/
example : ∃ P : Poseidon2Params ℚ, Poseidon2Params.new false 3 5 8 (2 ^ 64 - 6) [] [] (List.replicate 100 [1, 2, 3]) = some P ∧
    ∀ x : List ℚ, Poseidon2.permutation false P x = none :=
  C66_poseidon2_panics _ _ (by omega) (by omega) (by omega) (by omega) (by omega) (by simp)

/-- Witness: Neptune with 8 external and `usize::MAX - 1` internal rounds; six rows of constants are drawn. -/
example : ∃ P : NeptuneParams ℚ, NeptuneParams.new false 4 5 8 (2 ^ 64 - 2) (List.replicate (6 * 4 + (4 * 1 + (1 + 0))) 1) =
    some (P, []) ∧ ∃ (M : Matrix (Fin 4) (Fin 4) ℚ) (c : Nat → Nat → ℚ), ∀ x : Fin (2 * 2) → ℚ,
      Neptune.permutation false P (List.ofFn x) =
        some (List.ofFn (neptune M (neptuneInternal 4 (vec P.mu)) 5 P.abc.2.2 4 0 c x)) := by
  obtain ⟨P, hP, -⟩ := NeptuneParams.new_ones (F := ℚ) (t := 4) (d := 5) (rounds_f := 8) (rounds_p := 2 ^ 64 - 2) (n := 6)
    (dbg := false) (by omega) (by omega) (by omega) (by rw [uadd_wraps (by omega) (by omega) (by omega)]; rfl)
  obtain ⟨M, -, h⟩ := C66_neptune_no_internal_rounds (k := 2) (by omega) hP (by omega) (by omega) (by omega)
  exact ⟨P, hP, M, _, h⟩

end examples

end ZkHash
