import Verif.Theorems.Neptune

set_option autoImplicit false

/-!
# What the Neptune constructor does with the generator's output: C51
-/

namespace ZkHash

variable {dbg : Bool}

open Spec Matrix Fields

set_option linter.unusedSectionVars false

variable {F : Type} [Field F] [DecidableEq F]

namespace NeptuneParams

theorem repeat_scalar_iff {n : Nat} {s l r : List F} :
    repeatDraw randomScalar n s = some (l, r) ↔ s = l ++ r ∧ l.length = n := by
  induction n generalizing s l r with
  | zero =>
    unfold repeatDraw
    rw [pure_some]
    constructor
    · rintro ⟨rfl, rfl⟩; exact ⟨rfl, rfl⟩
    · rintro ⟨rfl, h⟩
      obtain rfl := List.length_eq_zero_iff.mp h
      exact ⟨rfl, rfl⟩
  | succ n ih =>
    unfold repeatDraw
    constructor
    · intro h
      obtain ⟨a, s1, h1, h⟩ := bind_some.mp h
      obtain ⟨l', s2, h2, h⟩ := bind_some.mp h
      obtain ⟨rfl, rfl⟩ := pure_some.mp h
      obtain ⟨rfl, hl⟩ := ih.mp h2
      cases s with
      | nil => cases h1
      | cons x s => cases h1; exact ⟨rfl, by simp [hl]⟩
    · rintro ⟨rfl, h⟩
      cases l with
      | nil => simp at h
      | cons x l =>
        refine bind_some.mpr ⟨x, l ++ r, rfl, ?_⟩
        exact bind_some.mpr ⟨l, r, ih.mpr ⟨rfl, by simpa using h⟩, pure_some.mpr ⟨rfl, rfl⟩⟩

theorem repeat_rows_iff {m n : Nat} {s r : List F} {L : List (List F)} :
    repeatDraw (repeatDraw randomScalar m) n s = some (L, r) ↔
      s = L.flatten ++ r ∧ L.length = n ∧ ∀ row ∈ L, row.length = m := by
  induction n generalizing s L r with
  | zero =>
    unfold repeatDraw
    rw [pure_some]
    constructor
    · rintro ⟨rfl, rfl⟩; exact ⟨rfl, rfl, by simp⟩
    · rintro ⟨rfl, h, -⟩
      obtain rfl := List.length_eq_zero_iff.mp h
      exact ⟨rfl, rfl⟩
  | succ n ih =>
    unfold repeatDraw
    constructor
    · intro h
      obtain ⟨a, s1, h1, h⟩ := bind_some.mp h
      obtain ⟨l', s2, h2, h⟩ := bind_some.mp h
      obtain ⟨rfl, rfl⟩ := pure_some.mp h
      obtain ⟨rfl, hl, hr⟩ := ih.mp h2
      obtain ⟨rfl, ha⟩ := repeat_scalar_iff.mp h1
      refine ⟨by simp, by simp [hl], ?_⟩
      intro row hrow
      rcases List.mem_cons.mp hrow with rfl | h
      · exact ha
      · exact hr _ h
    · rintro ⟨rfl, h, hr⟩
      cases L with
      | nil => simp at h
      | cons a L =>
        refine bind_some.mpr ⟨a, L.flatten ++ r, repeat_scalar_iff.mpr ⟨by simp, hr _ (by simp)⟩, ?_⟩
        exact bind_some.mpr ⟨L, r, ih.mpr ⟨rfl, by simpa using h, fun row hrow => hr _ (by simp [hrow])⟩,
          pure_some.mpr ⟨rfl, rfl⟩⟩

/-- The first nonzero element splits a list whose last element is not zero. -/
theorem split_nonzero {N l : List F} {a : F} (h : N.filter (· ≠ 0) = a :: l) (hlast : N.getLast? ≠ some 0) :
    a ≠ 0 ∧ ∃ n N', N = List.replicate n 0 ++ a :: N' ∧ N'.filter (· ≠ 0) = l ∧ N'.getLast? ≠ some 0 := by
  induction N with
  | nil => simp at h
  | cons x N ih =>
    by_cases hx : x = 0
    · subst hx
      have hN : N ≠ [] := by
        rintro rfl
        simp at h
      have : N.getLast? ≠ some 0 := by
        rwa [List.getLast?_cons_of_ne_nil hN] at hlast
      obtain ⟨ha, n, N', rfl, h1, h2⟩ := ih (by simpa using h) this
      exact ⟨ha, n + 1, N', by simp [List.replicate_succ], h1, h2⟩
    · simp only [ne_eq, hx, not_false_eq_true, decide_true, List.filter_cons_of_pos, List.cons.injEq] at h
      obtain ⟨rfl, h⟩ := h
      refine ⟨hx, 0, N, rfl, h, ?_⟩
      cases N with
      | nil => simp
      | cons y N => rwa [List.getLast?_cons_of_ne_nil (by simp)] at hlast

theorem mu_iff {n : Nat} {s mu r : List F} :
    instantiateMu n s = some (mu, r) ↔
      mu.length = n ∧ ∃ N, s = N ++ r ∧ N.filter (· ≠ 0) = mu.map (· + 1) ∧ N.getLast? ≠ some 0 := by
  unfold instantiateMu
  induction n generalizing s mu r with
  | zero =>
    unfold repeatDraw
    rw [pure_some]
    constructor
    · rintro ⟨rfl, rfl⟩; exact ⟨rfl, [], rfl, rfl, by simp⟩
    · rintro ⟨h, N, rfl, h1, h2⟩
      obtain rfl := List.length_eq_zero_iff.mp h
      have hN : N = [] := by
        by_contra hN
        obtain ⟨x, hx⟩ : ∃ x, N.getLast? = some x := by
          rw [← Option.isSome_iff_exists]; simpa using hN
        have hx0 : x = 0 := by
          by_contra hx0
          have : x ∈ N.filter (· ≠ 0) := by
            simp [List.mem_of_getLast? hx, hx0]
          rw [h1] at this
          simp at this
        exact h2 (hx0 ▸ hx)
      subst hN
      exact ⟨rfl, rfl⟩
  | succ n ih =>
    unfold repeatDraw
    constructor
    · intro h
      obtain ⟨a, s1, h1, h⟩ := bind_some.mp h
      obtain ⟨l', s2, h2, h⟩ := bind_some.mp h
      obtain ⟨rfl, rfl⟩ := pure_some.mp h
      obtain ⟨b, s3, h3, h4⟩ := bind_some.mp h1
      obtain ⟨rfl, rfl⟩ := pure_some.mp h4
      obtain ⟨hl, N, rfl, e1, e2⟩ := ih.mp h2
      obtain ⟨hb, m, rfl⟩ := ((C33_without_0 s).2 b _).mp h3
      refine ⟨by simp [hl], List.replicate m 0 ++ b :: N, by simp, ?_, ?_⟩
      · simp [hb] at e1 ⊢
        exact e1
      · rw [List.getLast?_append_of_ne_nil _ (by simp)]
        cases N with
        | nil => simpa using hb
        | cons y N => rwa [List.getLast?_cons_of_ne_nil (by simp)]
    · rintro ⟨h, N, rfl, e1, e2⟩
      cases mu with
      | nil => simp at h
      | cons a mu =>
        obtain ⟨ha, m, N', rfl, e1, e2⟩ := split_nonzero e1 e2
        refine bind_some.mpr ⟨a, N' ++ r, bind_some.mpr ⟨a + 1, N' ++ r, ?_, pure_some.mpr ⟨by simp, rfl⟩⟩, ?_⟩
        · exact ((C33_without_0 _).2 _ _).mpr ⟨ha, m, by simp⟩
        · exact bind_some.mpr ⟨mu, r, ih.mpr ⟨by simpa using h, N', rfl, e1, e2⟩, pure_some.mpr ⟨rfl, rfl⟩⟩

/-- The part `E` of the generator's output that determines the external matrix, and the matrix. -/
def ExternalDrawn (k : Nat) (E : List F) (m_e : List (List F)) : Prop :=
  (k = 2 ∧ E = [] ∧ m_e = rowsOf (neptuneExt4 (F := F))) ∨
  (k = 4 ∧ E = [] ∧ m_e = rowsOf (neptuneExt8 (F := F))) ∨
  (k ≠ 2 ∧ k ≠ 4 ∧ ∃ A B : Matrix (Fin k) (Fin k) F,
    E = (rowsOf A).flatten ++ (rowsOf B).flatten ∧ m_e = rowsOf (parityMatrix A B))

theorem external_iff {k : Nat} {s r : List F} {m_e : List (List F)} :
    instantiateExternalMatrix (2 * k) s = some (m_e, r) ↔ ∃ E, s = E ++ r ∧ ExternalDrawn k E m_e := by
  unfold ExternalDrawn
  by_cases h2 : k = 2
  · subst h2
    rw [show instantiateExternalMatrix (2 * 2) s = _ from external_four s]
    constructor
    · intro h; cases h; exact ⟨[], rfl, Or.inl ⟨rfl, rfl, rfl⟩⟩
    · rintro ⟨E, rfl, h⟩
      rcases h with ⟨-, rfl, rfl⟩ | ⟨h, -⟩ | ⟨h, -⟩
      · rfl
      · omega
      · omega
  by_cases h4 : k = 4
  · subst h4
    rw [show instantiateExternalMatrix (2 * 4) s = _ from external_eight s]
    constructor
    · intro h; cases h; exact ⟨[], rfl, Or.inr (Or.inl ⟨rfl, rfl, rfl⟩)⟩
    · rintro ⟨E, rfl, h⟩
      rcases h with ⟨h, -⟩ | ⟨-, rfl, rfl⟩ | ⟨-, h, -⟩
      · omega
      · rfl
      · omega
  have hb : ∀ (A B : Matrix (Fin k) (Fin k) F) (s r : List F),
      externalBlocks (2 * k) s = some ((rowsOf A, rowsOf B), r) ↔
        s = (rowsOf A).flatten ++ (rowsOf B).flatten ++ r := by
    intro A B s r
    have hrows : ∀ (M : Matrix (Fin k) (Fin k) F), (rowsOf M).length = k ∧ ∀ row ∈ rowsOf M, row.length = k := by
      intro M
      refine ⟨by simp [rowsOf], ?_⟩
      intro row hrow
      simp only [rowsOf, List.mem_ofFn] at hrow
      obtain ⟨i, rfl⟩ := hrow
      simp
    unfold externalBlocks
    rw [if_neg (by omega), if_neg (by omega), Nat.mul_div_cancel_left _ (by omega : 0 < 2)]
    constructor
    · intro h
      obtain ⟨a, s1, e1, h⟩ := bind_some.mp h
      obtain ⟨b, s2, e2, h⟩ := bind_some.mp h
      obtain ⟨e, rfl⟩ := pure_some.mp h
      cases e
      obtain ⟨rfl, -⟩ := repeat_rows_iff.mp e1
      obtain ⟨rfl, -⟩ := repeat_rows_iff.mp e2
      simp
    · rintro rfl
      refine bind_some.mpr ⟨rowsOf A, (rowsOf B).flatten ++ r, repeat_rows_iff.mpr ⟨by simp, hrows A⟩, ?_⟩
      exact bind_some.mpr ⟨rowsOf B, r, repeat_rows_iff.mpr ⟨rfl, hrows B⟩, pure_some.mpr ⟨rfl, rfl⟩⟩
  constructor
  · intro h
    have h' := h
    unfold instantiateExternalMatrix at h'
    obtain ⟨p, s1, h1, -⟩ := bind_some.mp h'
    obtain ⟨A, B, rfl⟩ := blocks_post h1
    rw [external_eq h1] at h
    cases h
    exact ⟨_, (hb A B s _).mp h1, Or.inr (Or.inr ⟨h2, h4, A, B, rfl, rfl⟩)⟩
  · rintro ⟨E, rfl, h⟩
    rcases h with ⟨h, -⟩ | ⟨h, -⟩ | ⟨-, -, A, B, rfl, rfl⟩
    · omega
    · omega
    · exact external_eq ((hb A B _ _).mpr rfl)

end NeptuneParams

/-- **C51.** What the constructor returns, and when: with a generator about to deliver `s`, `NeptuneParams::new` of an
even width `2k` returns `P`, leaving `r`, exactly when `d` is 3, 5 or 7, `rounds_f` is even, the number of rounds fits a
`usize` or the build is a release build (where it wraps), and `s` is made of
* the rows of the round constants, one after the other;
* the entries of the two blocks of the external matrix, row by row (nothing for widths 4 and 8, where the matrix is fixed);
* a stretch `N` that ends with its `2k`-th nonzero element, the nonzero elements being `mu_i + 1` in order;
* `gamma`;
* and then `r`. -/
theorem C51_constructor_iff {k d rounds_f rounds_p : Nat} {s r : List F} {P : NeptuneParams F} :
    NeptuneParams.new dbg (2 * k) d rounds_f rounds_p s = some (P, r) ↔
      (d = 3 ∨ d = 5 ∨ d = 7) ∧ rounds_f % 2 = 0 ∧ (dbg = true → rounds_f + rounds_p < 2 ^ 64) ∧
      P.t = 2 * k ∧ P.d = d ∧ P.rounds_f_beginning = rounds_f / 2 ∧ P.rounds_p = rounds_p ∧
      P.rounds_f_end = rounds_f / 2 ∧ P.rounds = (rounds_f + rounds_p) % 2 ^ 64 ∧
      P.round_constants.length = (rounds_f + rounds_p) % 2 ^ 64 ∧ (∀ row ∈ P.round_constants, row.length = 2 * k) ∧
      P.mu.length = 2 * k ∧ P.a_ = (1, 3, 4) ∧
      ∃ (E N : List F) (γ : F), s = P.round_constants.flatten ++ (E ++ (N ++ γ :: r)) ∧ P.abc = (1, 1, γ) ∧
        N.filter (· ≠ 0) = P.mu.map (· + 1) ∧ N.getLast? ≠ some 0 ∧ NeptuneParams.ExternalDrawn k E P.m_e := by
  have h3 : (1 : F) + 1 + 1 = 3 := by norm_num
  have h4 : (1 : F) + 1 + (1 + 1) = 4 := by norm_num
  constructor
  · intro h
    obtain ⟨A, B, hmade, -⟩ := NeptuneParams.new_post h
    have hd := hmade.degree
    have hr := hmade.even
    clear hmade
    unfold NeptuneParams.new at h
    obtain ⟨_, _, h1, h⟩ := bind_some.mp h
    obtain ⟨_, _, h2, h⟩ := bind_some.mp h
    obtain ⟨_, _, h2', h⟩ := bind_some.mp h
    obtain ⟨n, _, h0, h⟩ := bind_some.mp h
    obtain ⟨rc, _, h3', h⟩ := bind_some.mp h
    obtain ⟨m_e, _, h4', h⟩ := bind_some.mp h
    obtain ⟨mu, s5, h5, h⟩ := bind_some.mp h
    obtain ⟨γ, _, h6, h⟩ := bind_some.mp h
    obtain ⟨hP, rfl⟩ := pure_some.mp h
    obtain ⟨h1, rfl⟩ := lift_some.mp h1
    obtain ⟨h2, rfl⟩ := lift_some.mp h2
    obtain ⟨-, rfl⟩ := lift_some.mp h2'
    obtain ⟨h0', rfl⟩ := lift_some.mp h0
    obtain ⟨hf, hn⟩ := uadd_some_iff.mp h0'
    obtain ⟨rfl, r1, r2⟩ := NeptuneParams.repeat_rows_iff.mp h3'
    obtain ⟨E, rfl, hE⟩ := NeptuneParams.external_iff.mp h4'
    obtain ⟨m1, N, rfl, m2, m3⟩ := NeptuneParams.mu_iff.mp h5
    cases s5 with
    | nil => cases h6
    | cons x s5 =>
      cases h6
      subst hP
      exact ⟨hd, hr, hf, rfl, rfl, rfl, rfl, rfl, hn, r1.trans hn, r2, m1, by simp [h3, h4], E, N, γ, rfl, rfl, m2, m3, hE⟩
  · rintro ⟨hd, hr, h0, e1, e2, e3, e4, e5, e6, r1, r2, m1, e7, E, N, γ, rfl, e8, m2, m3, hE⟩
    obtain ⟨Pt, Pd, Pf, Pp, Pe, Pr, rc, m_e, mu, abc, a_⟩ := P
    simp only at e1 e2 e3 e4 e5 e6 e7 e8 r1 r2 m1 m2 hE
    subst e1 e2 e3 e4 e5 e7 e8
    rw [← e6] at r1
    unfold NeptuneParams.new
    have a1 : assertThat (Pd == 3 || Pd == 5 || Pd == 7) = some () := by
      unfold assertThat
      rcases hd with rfl | rfl | rfl <;> rfl
    have a2 : assertThat (rounds_f % 2 == 0) = some () := by simp [assertThat, hr]
    have a3 : assertThat (2 * k % 2 == 0) = some () := by simp [assertThat]
    refine bind_some.mpr ⟨(), _, lift_some.mpr ⟨a1, rfl⟩, ?_⟩
    refine bind_some.mpr ⟨(), _, lift_some.mpr ⟨a2, rfl⟩, ?_⟩
    refine bind_some.mpr ⟨(), _, lift_some.mpr ⟨a3, rfl⟩, ?_⟩
    refine bind_some.mpr ⟨Pr, _, lift_some.mpr ⟨uadd_some_iff.mpr ⟨h0, e6⟩, rfl⟩, ?_⟩
    refine bind_some.mpr ⟨rc, _, NeptuneParams.repeat_rows_iff.mpr ⟨rfl, r1, r2⟩, ?_⟩
    refine bind_some.mpr ⟨m_e, _, NeptuneParams.external_iff.mpr ⟨E, rfl, hE⟩, ?_⟩
    refine bind_some.mpr ⟨mu, _, NeptuneParams.mu_iff.mpr ⟨m1, N, rfl, m2, m3⟩, ?_⟩
    refine bind_some.mpr ⟨γ, r, rfl, ?_⟩
    refine pure_some.mpr ⟨?_, rfl⟩
    simp [h3, h4]

section examples
private instance : Fact (Nat.Prime 11) := ⟨by decide⟩

/-- Witness for C51: width 2, blocks drawn, one zero skipped for `mu`, two elements left over. -/
example : NeptuneParams.new dbg 2 5 2 1 ([1, 2, 3, 4, 5, 6] ++ [7, 8] ++ [4, 0, 5] ++ [9] ++ [10, 3] : List (ZMod 11)) =
    some (⟨2, 5, 1, 1, 1, 3, [[1, 2], [3, 4], [5, 6]], [[7, 0], [0, 8]], [3, 4], (1, 1, 9), (1, 3, 4)⟩, [10, 3]) := by
  rfl

end examples

end ZkHash
