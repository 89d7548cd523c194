import Verif.Proofs.NeptuneLast
import Verif.Theorems.LastRound
import Verif.Theorems.NeptuneBranch

set_option autoImplicit false

/-!
# How rarely the constants of the last round but one produce a given difference of outputs, in Neptune: C89
-/

namespace ZkHash

open Spec Matrix

variable {dbg : Bool}

namespace Universal

theorem length_flatten_eq {F : Type} {t : Nat} {l : List (List F)} (h : ∀ row ∈ l, row.length = t) :
    l.flatten.length = l.length * t := by
  induction l with
  | nil => simp
  | cons a l ih =>
    rw [List.flatten_cons, List.length_append, ih fun row hr => h row (List.mem_cons_of_mem _ hr),
      h a List.mem_cons_self, List.length_cons]
    ring

/-- If the two blocks have no zero, then neither have the positions of equal parity. -/
theorem tab_parity_ne_zero {F : Type} [Field F] {k : Nat} {A B : Matrix (Fin k) (Fin k) F} {i j : Nat} (hi : i < 2 * k)
    (hj : j < 2 * k) (hij : j % 2 = i % 2) (hA : ∀ a b, A a b ≠ 0) (hB : ∀ a b, B a b ≠ 0) :
    tab (rowsOf (parityMatrix A B)) i j ≠ 0 := by
  have e : tab (rowsOf (parityMatrix A B)) i j = parityMatrix A B ⟨i, hi⟩ ⟨j, hj⟩ := by
    simp [tab, rowsOf, List.getD, hi, hj]
  rw [e]
  unfold parityMatrix
  rw [if_neg (by simp only [ne_eq, not_not]; omega)]
  split
  · exact hA _ _
  · exact hB _ _

/-- Replacing the row of constants number `m` in the stream and in the parameters. -/
theorem neptune_replace {F : Type} [Field F] [DecidableEq F] {k d rounds_f rounds_p m : Nat} {P : NeptuneParams F}
    {pre post r : List F} {c0 : Fin (2 * k) → F} (hfit : rounds_f + rounds_p < 2 ^ 64)
    (h : NeptuneParams.new dbg (2 * k) d rounds_f rounds_p (pre ++ List.ofFn c0 ++ post) = some (P, r))
    (hm : m < rounds_f + rounds_p) (hpre : pre.length = m * (2 * k)) (c : Fin (2 * k) → F) :
    NeptuneParams.new dbg (2 * k) d rounds_f rounds_p (pre ++ List.ofFn c ++ post) =
      some ({ P with round_constants := P.round_constants.set m (List.ofFn c) }, r) := by
  obtain ⟨h1, h2, h3, h4, h5, h6, h7, h8, h9, h10, h11, h12, h13, E, N, γ, hs, h14, h15, h16, h17⟩ :=
    C51_constructor_iff.mp h
  have hlen : m < P.round_constants.length := by rw [h10, Nat.mod_eq_of_lt hfit]; exact hm
  have hsplit : P.round_constants = P.round_constants.take m ++ (P.round_constants[m] :: P.round_constants.drop (m + 1)) := by
    rw [← List.drop_eq_getElem_cons hlen, List.take_append_drop]
  have hset : P.round_constants.set m (List.ofFn c) =
      P.round_constants.take m ++ (List.ofFn c :: P.round_constants.drop (m + 1)) := by
    rw [List.set_eq_take_append_cons_drop, if_pos hlen]
  have hfl : (P.round_constants.take m).flatten.length = m * (2 * k) := by
    rw [length_flatten_eq fun row hr => h11 row (List.mem_of_mem_take hr), List.length_take, Nat.min_eq_left hlen.le]
  have hrow : P.round_constants[m].length = 2 * k := h11 _ (List.getElem_mem hlen)
  refine C51_constructor_iff.mpr ⟨h1, h2, h3, h4, h5, h6, h7, h8, h9, ?_, ?_, h12, h13, E, N, γ, ?_, h14, h15, h16, h17⟩
  · simp only [List.length_set]; exact h10
  · intro row hr
    rcases List.mem_or_eq_of_mem_set hr with h' | h'
    · exact h11 row h'
    · rw [h', List.length_ofFn]
  · show pre ++ List.ofFn c ++ post = (P.round_constants.set m (List.ofFn c)).flatten ++ (E ++ (N ++ γ :: r))
    rw [hset]
    rw [hsplit] at hs
    simp only [List.flatten_append, List.flatten_cons, List.append_assoc] at hs ⊢
    obtain ⟨e1, e2⟩ := List.append_inj hs (by rw [hpre, hfl])
    obtain ⟨-, e3⟩ := List.append_inj e2 (by rw [List.length_ofFn, hrow])
    rw [e1, e3]

end Universal

/-- **C89.** Neptune over a finite field with `q` elements of odd characteristic, with at least two external rounds. Fix
what the generator delivers, `pre` (the constants of all rounds before the last but one), `t` further elements and
`post`, and suppose the constructor accepts it and the permutation gives different results on the inputs `x` and `x'`;
fix a word `i` whose row of the external matrix has no zero in the columns of the same parity, and a difference `v`. Now
let the generator deliver other `t` elements between `pre` and `post`. Of the `q ^ t` possibilities all but a fraction of
at most `2 / q` are good: the constructor accepts the delivery, the permutation returns on both inputs, and the two
results differ in word `i` by something else than `v`. -/
theorem C89_neptune {F : Type} [Field F] [Fintype F] [DecidableEq F] {t d rounds_f rounds_p : Nat} {P : NeptuneParams F}
    {pre post r : List F} {c0 : Fin t → F} (h2 : (2 : F) ≠ 0) (hfit : rounds_f + rounds_p < 2 ^ 64) (hf : 2 ≤ rounds_f)
    (hP : NeptuneParams.new dbg t d rounds_f rounds_p (pre ++ List.ofFn c0 ++ post) = some (P, r))
    (hpre : pre.length = (rounds_f + rounds_p - 2) * t) {x x' : List F} (hx : x.length = t) (hx' : x'.length = t)
    (hne : Neptune.permutation dbg P x ≠ Neptune.permutation dbg P x') {i : Nat} (hi : i < t)
    (hM : ∀ j < t, j % 2 = i % 2 → tab P.m_e i j ≠ 0) (v : F) :
    Nat.card {c : Fin t → F // ¬ ∃ Q y y' a b,
        NeptuneParams.new dbg t d rounds_f rounds_p (pre ++ List.ofFn c ++ post) = some (Q, r) ∧
        Neptune.permutation dbg Q x = some y ∧ Neptune.permutation dbg Q x' = some y' ∧
        y[i]? = some a ∧ y'[i]? = some b ∧ a - b ≠ v} * Fintype.card F ≤
      2 * Fintype.card F ^ t := by
  classical
  obtain ⟨k, rfl⟩ : ∃ k, t = 2 * k := ⟨t / 2, by have := NeptuneParams.new_even hP; omega⟩
  have heven := (C51_constructor_iff.mp hP).2.1
  have hrclen := (C51_constructor_iff.mp hP).2.2.2.2.2.2.2.2.2.1
  rw [Nat.mod_eq_of_lt hfit] at hrclen
  obtain ⟨x, rfl⟩ := eq_ofFn x hx
  obtain ⟨x', rfl⟩ := eq_ofFn x' hx'
  obtain ⟨m, hm⟩ : ∃ m, rounds_f + rounds_p = m + 2 := ⟨rounds_f + rounds_p - 2, by omega⟩
  have hm' : rounds_f / 2 + rounds_p + rounds_f / 2 = m + 2 := by omega
  obtain ⟨A, B, hmade, -⟩ := NeptuneParams.ext_of_new hP
  obtain ⟨M, hMe, hspec⟩ := C25_permutation_eq_spec (by omega) hP hfit
  have hAB : M = parityMatrix A B := rowsOf_injective (hMe.symm.trans hmade.m_e_eq)
  rw [hspec, hspec, Universal.neptune_last _ _ _ _ (by omega) hm', Universal.neptune_last _ _ _ _ (by omega) hm'] at hne
  have hne' : Universal.beforeTwo M (neptuneInternal (2 * k) (vec P.mu)) d P.abc.2.2 (rounds_f / 2) rounds_p m
      (tab P.round_constants) x ≠ Universal.beforeTwo M (neptuneInternal (2 * k) (vec P.mu)) d P.abc.2.2 (rounds_f / 2)
      rounds_p m (tab P.round_constants) x' := fun h => hne (by rw [h])
  have hent : ∀ j : Fin (2 * k), j.val % 2 = i % 2 → parityMatrix A B ⟨i, hi⟩ j ≠ 0 := by
    intro j hj
    have := hM j j.isLt hj
    rw [hMe, hAB] at this
    simpa [tab, rowsOf, List.getD, hi] using this
  refine le_trans (Nat.mul_le_mul_right _ (card_subtype_le fun c hc => ?_))
    (Universal.extRound_count h2 A B P.abc.2.2 hne' ⟨i, hi⟩ hent v)
  by_contra hv
  have hQ := Universal.neptune_replace hfit hP (m := m) (by omega) (by rw [hpre, hm, Nat.add_sub_cancel]) c
  obtain ⟨M', hMe', hspec'⟩ := C25_permutation_eq_spec (by omega) hQ hfit
  have hM' : M' = M := rowsOf_injective (hMe'.symm.trans hMe)
  rw [hM'] at hspec'
  have hlast : ∀ z : Fin (2 * k) → F,
      neptune M (neptuneInternal (2 * k) (vec P.mu)) d P.abc.2.2 (rounds_f / 2) rounds_p
        (tab (P.round_constants.set m (List.ofFn c))) z =
      (M *ᵥ onPairs (neptunePair P.abc.2.2) (Universal.beforeTwo M (neptuneInternal (2 * k) (vec P.mu)) d P.abc.2.2
        (rounds_f / 2) rounds_p m (tab P.round_constants) z + c)) +
        fun i : Fin (2 * k) => tab P.round_constants (m + 1) i := by
    intro z
    rw [Universal.neptune_last _ _ _ _ (by omega) hm',
      Universal.beforeTwo_congr _ _ _ _ _ _ _ (fun r hr i => Universal.tab_set_ne P.round_constants _ _ (by omega) i) z]
    congr 1
    · congr 3
      funext j
      exact Universal.tab_set_self P.round_constants (by omega) c j
    · funext j
      exact Universal.tab_set_ne P.round_constants _ _ (by omega) _
  refine hc ⟨_, _, _, _, _, hQ, hspec' x, hspec' x', List.getElem?_eq_getElem (by simpa using hi),
    List.getElem?_eq_getElem (by simpa using hi), ?_⟩
  rw [List.getElem_ofFn, List.getElem_ofFn]
  simp only
  rw [hlast, hlast, Pi.add_apply, Pi.add_apply, add_sub_add_right_eq_sub]
  unfold Universal.outDiff at hv
  rw [← hAB] at hv
  exact hv

/-- **C89** for widths 4 and 8, where the external matrix is fixed: no condition on the matrix is needed, if 3 is not
zero. -/
theorem C89_neptune_4_8 {F : Type} [Field F] [Fintype F] [DecidableEq F] {t d rounds_f rounds_p : Nat}
    (ht : t = 4 ∨ t = 8) {P : NeptuneParams F} {pre post r : List F} {c0 : Fin t → F} (h2 : (2 : F) ≠ 0) (h3 : (3 : F) ≠ 0)
    (hfit : rounds_f + rounds_p < 2 ^ 64) (hf : 2 ≤ rounds_f)
    (hP : NeptuneParams.new dbg t d rounds_f rounds_p (pre ++ List.ofFn c0 ++ post) = some (P, r))
    (hpre : pre.length = (rounds_f + rounds_p - 2) * t) {x x' : List F} (hx : x.length = t) (hx' : x'.length = t)
    (hne : Neptune.permutation dbg P x ≠ Neptune.permutation dbg P x') {i : Nat} (hi : i < t) (v : F) :
    Nat.card {c : Fin t → F // ¬ ∃ Q y y' a b,
        NeptuneParams.new dbg t d rounds_f rounds_p (pre ++ List.ofFn c ++ post) = some (Q, r) ∧
        Neptune.permutation dbg Q x = some y ∧ Neptune.permutation dbg Q x' = some y' ∧
        y[i]? = some a ∧ y'[i]? = some b ∧ a - b ≠ v} * Fintype.card F ≤
      2 * Fintype.card F ^ t := by
  refine C89_neptune h2 hfit hf hP hpre hx hx' hne hi (fun j hj hij => ?_) v
  rcases ht with rfl | rfl
  · obtain ⟨A, B, -, h4, -⟩ := NeptuneParams.ext_of_new (k := 2) hP
    rw [h4 rfl]
    unfold neptuneExt4
    refine Universal.tab_parity_ne_zero hi hj hij (fun a b => ?_) (fun a b => ?_) <;>
      fin_cases a <;> fin_cases b <;> simp [h2]
  · obtain ⟨A, B, -, -, h8⟩ := NeptuneParams.ext_of_new (k := 4) hP
    rw [h8 rfl]
    unfold neptuneExt8
    refine Universal.tab_parity_ne_zero hi hj hij (fun a b => ?_) (fun a b => ?_) <;>
      fin_cases a <;> fin_cases b <;> simp [h2, h3]

/-- **C89** for the shipped parameter sets of width 4 and 8, whatever the generator delivered for the rest, if the internal
matrix it delivered is invertible: any two different inputs. -/
theorem C89_neptune_shipped (S : Shape) (hS : S ∈ Instances.neptune) (h48 : S.t = 4 ∨ S.t = 8) [Fact S.modulus.Prime]
    {P : NeptuneParams (ZMod S.modulus)} {pre post r : List (ZMod S.modulus)} {c0 : Fin S.t → ZMod S.modulus}
    (hP : NeptuneParams.new dbg S.t S.d S.rounds_f S.rounds_p (pre ++ List.ofFn c0 ++ post) = some (P, r))
    (hdet : (neptuneInternal S.t (vec P.mu)).det ≠ 0) (hpre : pre.length = (S.rounds_f + S.rounds_p - 2) * S.t)
    {x x' : List (ZMod S.modulus)} (hx : x.length = S.t) (hx' : x'.length = S.t) (hne : x ≠ x') {i : Nat} (hi : i < S.t)
    (v : ZMod S.modulus) :
    Nat.card {c : Fin S.t → ZMod S.modulus // ¬ ∃ Q y y' a b,
        NeptuneParams.new dbg S.t S.d S.rounds_f S.rounds_p (pre ++ List.ofFn c ++ post) = some (Q, r) ∧
        Neptune.permutation dbg Q x = some y ∧ Neptune.permutation dbg Q x' = some y' ∧
        y[i]? = some a ∧ y'[i]? = some b ∧ a - b ≠ v} * S.modulus ≤
      2 * S.modulus ^ S.t := by
  have hN : NeZero S.modulus := ⟨(Fact.out : S.modulus.Prime).ne_zero⟩
  obtain ⟨-, -, -, -, -, hfit⟩ := neptune_good S hS
  have hperm := (C55_neptune_bijective S hS h48 hP).mpr hdet
  have hall : (Instances.neptune.all fun S => decide (2 ≤ S.rounds_f ∧ 7 < S.modulus)) = true := by decide +kernel
  have hall := List.all_eq_true.mp hall S hS
  rw [decide_eq_true_eq] at hall
  have hcast : ∀ n : Nat, 0 < n → n ≤ 7 → (n : ZMod S.modulus) ≠ 0 := by
    intro n h0 hn
    rw [Ne, ZMod.natCast_eq_zero_iff]
    intro hdvd
    have := Nat.le_of_dvd h0 hdvd
    omega
  have hne' : Neptune.permutation dbg P x ≠ Neptune.permutation dbg P x' := by
    intro he
    obtain ⟨y, hy, hxy⟩ := hperm.1 x hx
    obtain ⟨w, -, huniq⟩ := hperm.2 y hy
    exact hne ((huniq x ⟨hx, hxy⟩).trans (huniq x' ⟨hx', he ▸ hxy⟩).symm)
  have := C89_neptune_4_8 h48 (by exact_mod_cast hcast 2 (by omega) (by omega))
    (by exact_mod_cast hcast 3 (by omega) (by omega)) hfit hall.1 hP hpre hx hx' hne' hi v
  rwa [ZMod.card] at this

/-- Concrete hypotheses: the stream `exStream4` over the field with 11 elements (three rounds of width 4) with any four
elements in the place of the constants of the middle round. At most 2662 of the 14641 possibilities give equal first
words. -/
example : Nat.card {c : Fin 4 → ZMod 11 // ¬ ∃ Q y y' a b,
      NeptuneParams.new true 4 3 2 1 ([1, 2, 3, 4] ++ List.ofFn c ++ [9, 10, 1, 2, 0, 2, 3, 4, 5, 6]) = some (Q, []) ∧
      Neptune.permutation true Q [1, 2, 3, 4] = some y ∧ Neptune.permutation true Q [1, 2, 3, 5] = some y' ∧
      y[0]? = some a ∧ y'[0]? = some b ∧ a - b ≠ 0} ≤ 2662 := by
  have hstream : ([1, 2, 3, 4] ++ List.ofFn ![5, 6, 7, 8] ++ [9, 10, 1, 2, 0, 2, 3, 4, 5, 6] : List (ZMod 11)) = exStream4 := by
    decide
  have hP : ∃ P, NeptuneParams.new true 4 3 2 1 exStream4 = some (P, []) ∧
      Neptune.permutation true P [1, 2, 3, 4] ≠ Neptune.permutation true P [1, 2, 3, 5] :=
    ⟨_, rfl, by decide +kernel⟩
  obtain ⟨P, hP, hne⟩ := hP
  rw [← hstream] at hP
  have h := C89_neptune_4_8 (Or.inl rfl) (by decide) (by decide) (by omega) (by omega) hP rfl rfl rfl hne
    (i := 0) (by omega) 0
  rw [ZMod.card] at h
  have : (2 * 11 ^ 4 : ℕ) = 2662 * 11 := by norm_num
  rw [this] at h
  exact Nat.le_of_mul_le_mul_right h (by norm_num)

end ZkHash
