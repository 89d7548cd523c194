import Verif.Theorems.Uniform

set_option autoImplicit false

/-!
# Counting constants against digests: the two-to-one compressions in C88, C89 and C90
-/

namespace ZkHash

open Spec Matrix

variable {dbg : Bool}

/-- A permutation of the states gives different results on different states. -/
theorem permutation_ne {F : Type} {t : Nat} {f : List F → Option (List F)} (h : IsPermutation t f) {x x' : List F}
    (hx : x.length = t) (hx' : x'.length = t) (hne : x ≠ x') : f x ≠ f x' := by
  intro he
  obtain ⟨y, hy, hxy⟩ := h.1 x hx
  obtain ⟨w, -, huniq⟩ := h.2 y hy
  exact hne ((huniq x ⟨hx, hxy⟩).trans (huniq x' ⟨hx', he ▸ hxy⟩).symm)

namespace Uniform

/-- If every state is the result for exactly one row, then every value of a word is the result for `q ^ (t - 1)` rows. -/
theorem count_word_of_unique {F Q : Type} [Fintype F] {t : Nat} (mk : (Fin t → F) → Option Q) (run : Q → Option (List F))
    (huniq : ∀ y : List F, y.length = t → ∃! c, ∃ P, mk c = some P ∧ run P = some y) {i : Nat} (hi : i < t) (v : F) :
    Nat.card {c // ∃ P y, mk c = some P ∧ run P = some y ∧ y[i]? = some v} = Fintype.card F ^ (t - 1) := by
  classical
  choose g hg hu using fun y : Fin t → F => huniq (List.ofFn y) (by simp)
  have hinj : Function.Injective g := by
    intro y y' he
    obtain ⟨P, h1, h2⟩ := hg y
    obtain ⟨P', h1', h2'⟩ := hg y'
    rw [← he, h1] at h1'
    cases h1'
    exact List.ofFn_injective (Option.some.inj (h2.symm.trans h2'))
  have hsurj := (Finite.injective_iff_surjective.mp hinj)
  have h1 : ∀ y : Fin t → F, Nat.card {c // (mk c).bind run = some (List.ofFn y)} = 1 := by
    intro y
    rw [Nat.card_eq_one_iff_exists]
    obtain ⟨P, h1, h2⟩ := hg y
    refine ⟨⟨g y, by rw [h1]; exact h2⟩, fun ⟨c, hc⟩ => Subtype.ext (hu y c ?_)⟩
    obtain ⟨P, h1, h2⟩ := Option.bind_eq_some_iff.mp hc
    exact ⟨P, h1, h2⟩
  have h2 := count_of_states (fun c : Fin t → F => (mk c).bind run) h1 (fun c y hcy => by
    obtain ⟨z, rfl⟩ := hsurj c
    obtain ⟨P, h1, h2⟩ := hg z
    simp only [h1, Option.bind_some, h2, Option.some.injEq] at hcy
    rw [← hcy, List.length_ofFn]) ⟨i, hi⟩ v
  rw [mul_one] at h2
  rw [← h2]
  refine Nat.card_congr (Equiv.subtypeEquivRight fun c => ?_)
  rw [Option.bind_eq_some_iff]
  constructor
  · rintro ⟨P, y, h3, h4, h5⟩
    exact ⟨y, by rw [h3]; exact h4, h5⟩
  · rintro ⟨y, h3, h5⟩
    obtain ⟨P, h3, h4⟩ := Option.bind_eq_some_iff.mp h3
    exact ⟨P, y, h3, h4, h5⟩

end Uniform

section poseidon2

variable {F : Type} [Field F] [Fintype F] {t d rounds_f rounds_p : Nat} {diag : List F} {mat_internal rc : List (List F)}
  {P : Poseidon2Params F}

/-- **C88**, Poseidon2, compression: two different pairs of elements have the same digest for at most a fraction
`(d - 1) / q` of the rows of constants for the last round (and no row makes a call panic). -/
theorem C88_poseidon2_compress (hP : Poseidon2Params.new dbg 3 d rounds_f rounds_p diag mat_internal rc = some P)
    (hs : WellShaped 3 d rounds_f rounds_p diag rc) (hf : 2 ≤ rounds_f) (hdF : (d : F) ≠ 0) (h210 : (210 : F) ≠ 0)
    (hperm : IsPermutation 3 (Poseidon2.permutation dbg P)) {a b a' b' : F} (hne : (a, b) ≠ (a', b')) :
    Nat.card {c : Fin 3 → F // ¬ ∃ Q h h', Poseidon2Params.new dbg 3 d rounds_f rounds_p diag mat_internal
          (rc.set (rounds_f + rounds_p - 1) (List.ofFn c)) = some Q ∧
        Poseidon2.compress dbg Q [a, b] = some h ∧ Poseidon2.compress dbg Q [a', b'] = some h' ∧ h ≠ h'} *
      Fintype.card F ≤ (d - 1) * Fintype.card F ^ 3 := by
  classical
  refine le_trans (Nat.mul_le_mul_right _ ?_)
    (C88_poseidon2 hP hs hf hdF h210 (x := [a, b, 0]) (x' := [a', b', 0]) rfl rfl
      (permutation_ne hperm rfl rfl fun h => hne (by simp only [List.cons.injEq] at h; rw [h.1, h.2.1])) (i := 0) (by omega) 0)
  refine le_trans (card_subtype_le fun c hc => ?_) (le_of_eq (by rw [Nat.card_eq_fintype_card, Fintype.card_subtype]))
  rintro ⟨Q, y, y', u, w, h1, h2, h3, h4, h5, h6⟩
  refine hc ⟨Q, u, w, h1, ?_, ?_, fun h => h6 (sub_eq_zero.mpr h)⟩
  · simp [Poseidon2.compress, h2, h4]
  · simp [Poseidon2.compress, h3, h5]

/-- **C90**, Poseidon2, one word: every value of word `i` is the result for exactly `q ^ (t - 1)` of the `q ^ t` rows of
constants for the last round. -/
theorem C90_poseidon2_word (hP : Poseidon2Params.new dbg t d rounds_f rounds_p diag mat_internal rc = some P)
    (hs : WellShaped t d rounds_f rounds_p diag rc) (hf : 2 ≤ rounds_f)
    (hperm : IsPermutation t (Poseidon2.permutation dbg P)) {x : List F} (hx : x.length = t) {i : Nat} (hi : i < t)
    (v : F) :
    Nat.card {c : Fin t → F // ∃ Q y, Poseidon2Params.new dbg t d rounds_f rounds_p diag mat_internal
          (rc.set (rounds_f + rounds_p - 1) (List.ofFn c)) = some Q ∧
        Poseidon2.permutation dbg Q x = some y ∧ y[i]? = some v} = Fintype.card F ^ (t - 1) :=
  Uniform.count_word_of_unique
    (fun c : Fin t → F => Poseidon2Params.new dbg t d rounds_f rounds_p diag mat_internal
      (rc.set (rounds_f + rounds_p - 1) (List.ofFn c)))
    (fun Q => Poseidon2.permutation dbg Q x) (fun _ hy => C90_poseidon2 hP hs hf hperm hx hy) hi v

/-- **C90**, Poseidon2, compression: every element is the digest of two given elements for exactly one in `q` of the
rows. -/
theorem C90_poseidon2_compress (hP : Poseidon2Params.new dbg 3 d rounds_f rounds_p diag mat_internal rc = some P)
    (hs : WellShaped 3 d rounds_f rounds_p diag rc) (hf : 2 ≤ rounds_f)
    (hperm : IsPermutation 3 (Poseidon2.permutation dbg P)) (a b h : F) :
    Nat.card {c : Fin 3 → F // ∃ Q, Poseidon2Params.new dbg 3 d rounds_f rounds_p diag mat_internal
          (rc.set (rounds_f + rounds_p - 1) (List.ofFn c)) = some Q ∧
        Poseidon2.compress dbg Q [a, b] = some h} = Fintype.card F ^ 2 := by
  rw [← C90_poseidon2_word hP hs hf hperm (x := [a, b, 0]) rfl (i := 0) (by omega) h]
  refine Nat.card_congr (Equiv.subtypeEquivRight fun c => ?_)
  constructor
  · rintro ⟨Q, h3, h4⟩
    cases hp : Poseidon2.permutation dbg Q [a, b, 0] with
    | none => simp [Poseidon2.compress, hp] at h4
    | some y => exact ⟨Q, y, h3, hp, by simpa [Poseidon2.compress, hp] using h4⟩
  · rintro ⟨Q, y, h3, h4, h5⟩
    exact ⟨Q, h3, by simp [Poseidon2.compress, h4, h5]⟩

end poseidon2

section poseidon

variable {F : Type} [Field F] [Fintype F] [DecidableEq F] {t d rounds_f rounds_p : Nat} {rc : List (List F)}
  {P : PoseidonParams F}

/-- **C88**, Poseidon, compression: two different pairs of elements have the same digest for at most a fraction
`(d - 1) / q` of the rows of constants for the last round, if the first row of the matrix has no zero. -/
theorem C88_poseidon_compress {M : Matrix (Fin 3) (Fin 3) F}
    (hP : PoseidonParams.new dbg 3 d rounds_f rounds_p (rowsOf M) rc = some P)
    (hs : PoseidonShaped 3 rounds_f rounds_p rc) (hf : 2 ≤ rounds_f) (hdF : (d : F) ≠ 0) (hM : ∀ j, M 0 j ≠ 0)
    (hperm : IsPermutation 3 (Poseidon.permutation dbg P)) {a b a' b' : F} (hne : (a, b) ≠ (a', b')) :
    Nat.card {c : Fin 3 → F // ¬ ∃ Q h h', PoseidonParams.new dbg 3 d rounds_f rounds_p (rowsOf M)
          (rc.set (rounds_f + rounds_p - 1) (List.ofFn c)) = some Q ∧
        Poseidon.compress dbg Q [a, b] = some h ∧ Poseidon.compress dbg Q [a', b'] = some h' ∧ h ≠ h'} *
      Fintype.card F ≤ (d - 1) * Fintype.card F ^ 3 := by
  refine le_trans (Nat.mul_le_mul_right _ ?_)
    (C88_poseidon hP hs hf hdF (x := [a, b, 0]) (x' := [a', b', 0]) rfl rfl
      (permutation_ne hperm rfl rfl fun h => hne (by simp only [List.cons.injEq] at h; rw [h.1, h.2.1])) (i := 0) (by omega) hM 0)
  classical
  refine le_trans (card_subtype_le fun c hc => ?_) (le_of_eq (by rw [Nat.card_eq_fintype_card, Fintype.card_subtype]))
  rintro ⟨Q, y, y', u, w, h1, h2, -, h3, -, h4, h5, h6⟩
  refine hc ⟨Q, u, w, h1, ?_, ?_, fun h => h6 (sub_eq_zero.mpr h)⟩
  · simp [Poseidon.compress, h2, h4]
  · simp [Poseidon.compress, h3, h5]

/-- **C90**, Poseidon, one word. -/
theorem C90_poseidon_word {M : Matrix (Fin t) (Fin t) F}
    (hP : PoseidonParams.new dbg t d rounds_f rounds_p (rowsOf M) rc = some P)
    (hs : PoseidonShaped t rounds_f rounds_p rc) (hf : 2 ≤ rounds_f)
    (hperm : IsPermutation t (Poseidon.permutation dbg P)) {x : List F} (hx : x.length = t) {i : Nat} (hi : i < t) (v : F) :
    Nat.card {c : Fin t → F // ∃ Q y, PoseidonParams.new dbg t d rounds_f rounds_p (rowsOf M)
          (rc.set (rounds_f + rounds_p - 1) (List.ofFn c)) = some Q ∧
        Poseidon.permutation dbg Q x = some y ∧ y[i]? = some v} = Fintype.card F ^ (t - 1) := by
  refine Uniform.count_word_of_unique
    (fun c : Fin t → F => PoseidonParams.new dbg t d rounds_f rounds_p (rowsOf M)
      (rc.set (rounds_f + rounds_p - 1) (List.ofFn c)))
    (fun Q => Poseidon.permutation dbg Q x) (fun y hy => ?_) hi v
  obtain ⟨c, ⟨Q, h1, h2, -⟩, huniq⟩ := C90_poseidon hP hs hf hperm hx hy
  refine ⟨c, ⟨Q, h1, h2⟩, ?_⟩
  rintro c' ⟨Q', h1', h2'⟩
  exact huniq c' ⟨Q', h1', h2', by
    rw [← C12_optimized_eq_plain h1' (PoseidonShaped.set hs _ c') dbg x]; exact h2'⟩

/-- **C90**, Poseidon, compression. -/
theorem C90_poseidon_compress {M : Matrix (Fin 3) (Fin 3) F}
    (hP : PoseidonParams.new dbg 3 d rounds_f rounds_p (rowsOf M) rc = some P)
    (hs : PoseidonShaped 3 rounds_f rounds_p rc) (hf : 2 ≤ rounds_f)
    (hperm : IsPermutation 3 (Poseidon.permutation dbg P)) (a b h : F) :
    Nat.card {c : Fin 3 → F // ∃ Q, PoseidonParams.new dbg 3 d rounds_f rounds_p (rowsOf M)
          (rc.set (rounds_f + rounds_p - 1) (List.ofFn c)) = some Q ∧
        Poseidon.compress dbg Q [a, b] = some h} = Fintype.card F ^ 2 := by
  rw [← C90_poseidon_word hP hs hf hperm (x := [a, b, 0]) rfl (i := 0) (by omega) h]
  refine Nat.card_congr (Equiv.subtypeEquivRight fun c => ?_)
  constructor
  · rintro ⟨Q, h3, h4⟩
    cases hp : Poseidon.permutation dbg Q [a, b, 0] with
    | none => simp [Poseidon.compress, hp] at h4
    | some y => exact ⟨Q, y, h3, hp, by simpa [Poseidon.compress, hp] using h4⟩
  · rintro ⟨Q, y, h3, h4, h5⟩
    exact ⟨Q, h3, by simp [Poseidon.compress, h4, h5]⟩

end poseidon

section neptune

variable {F : Type} [Field F] [Fintype F] [DecidableEq F] {t d rounds_f rounds_p : Nat} {P : NeptuneParams F}
  {pre post r : List F}

/-- **C89**, compression: with parameters of width 4 that give a bijection, two different pairs of elements have the same
digest for at most a fraction `2 / q` of the choices of the constants of the last round but one. -/
theorem C89_neptune_compress {c0 : Fin 4 → F} (h2 : (2 : F) ≠ 0) (h3 : (3 : F) ≠ 0) (hfit : rounds_f + rounds_p < 2 ^ 64)
    (hf : 2 ≤ rounds_f)
    (hP : NeptuneParams.new dbg 4 d rounds_f rounds_p (pre ++ List.ofFn c0 ++ post) = some (P, r))
    (hpre : pre.length = (rounds_f + rounds_p - 2) * 4) (hperm : IsPermutation 4 (Neptune.permutation dbg P))
    {a b a' b' : F} (hne : (a, b) ≠ (a', b')) :
    Nat.card {c : Fin 4 → F // ¬ ∃ Q h h',
        NeptuneParams.new dbg 4 d rounds_f rounds_p (pre ++ List.ofFn c ++ post) = some (Q, r) ∧
        Neptune.compress dbg Q [a, b] = some h ∧ Neptune.compress dbg Q [a', b'] = some h' ∧ h ≠ h'} *
      Fintype.card F ≤ 2 * Fintype.card F ^ 4 := by
  refine le_trans (Nat.mul_le_mul_right _ ?_)
    (C89_neptune_4_8 (Or.inl rfl) h2 h3 hfit hf hP hpre (x := [a, b, 0, 0]) (x' := [a', b', 0, 0]) rfl rfl
      (permutation_ne hperm rfl rfl fun h => hne (by simp only [List.cons.injEq] at h; rw [h.1, h.2.1])) (i := 0) (by omega) 0)
  classical
  refine le_trans (card_subtype_le fun c hc => ?_) (le_of_eq (by rw [Nat.card_eq_fintype_card, Fintype.card_subtype]))
  rintro ⟨Q, y, y', u, w, h1, h2, h3, h4, h5, h6⟩
  refine hc ⟨Q, u, w, h1, ?_, ?_, fun h => h6 (sub_eq_zero.mpr h)⟩
  · simp [Neptune.compress, h2, h4]
  · simp [Neptune.compress, h3, h5]

/-- **C90**, Neptune, one word. -/
theorem C90_neptune_word {c0 : Fin t → F} (ht : 0 < t) (hfit : rounds_f + rounds_p < 2 ^ 64)
    (hf : 1 ≤ rounds_f + rounds_p)
    (hP : NeptuneParams.new dbg t d rounds_f rounds_p (pre ++ List.ofFn c0 ++ post) = some (P, r))
    (hpre : pre.length = (rounds_f + rounds_p - 1) * t) {x : List F} (hx : x.length = t) {i : Nat} (hi : i < t) (v : F) :
    Nat.card {c : Fin t → F // ∃ Q y,
        NeptuneParams.new dbg t d rounds_f rounds_p (pre ++ List.ofFn c ++ post) = some (Q, r) ∧
        Neptune.permutation dbg Q x = some y ∧ y[i]? = some v} = Fintype.card F ^ (t - 1) := by
  have h := Uniform.count_word_of_unique
    (fun c : Fin t → F => NeptuneParams.new dbg t d rounds_f rounds_p (pre ++ List.ofFn c ++ post))
    (fun Q => if Q.2 = r then Neptune.permutation dbg Q.1 x else none) (fun y hy => ?_) hi v
  · rw [← h]
    refine Nat.card_congr (Equiv.subtypeEquivRight fun c => ?_)
    constructor
    · rintro ⟨Q, y, h1, h2, h3⟩
      exact ⟨(Q, r), y, h1, by simpa using h2, h3⟩
    · rintro ⟨⟨Q, r'⟩, y, h1, h2, h3⟩
      by_cases hr : r' = r
      · subst hr
        exact ⟨Q, y, h1, by simpa using h2, h3⟩
      · simp [hr] at h2
  · obtain ⟨c, ⟨Q, h1, h2⟩, huniq⟩ := C90_neptune ht hfit hf hP hpre hx hy
    refine ⟨c, ⟨(Q, r), h1, by simpa using h2⟩, ?_⟩
    rintro c' ⟨⟨Q', r'⟩, h1', h2'⟩
    by_cases hr : r' = r
    · subst hr
      exact huniq c' ⟨Q', h1', by simpa using h2'⟩
    · simp [hr] at h2'

/-- **C90**, Neptune, compression: every element is the digest of two given elements for exactly one in `q` of the choices
of the constants of the last round. -/
theorem C90_neptune_compress {c0 : Fin 4 → F} (hfit : rounds_f + rounds_p < 2 ^ 64) (hf : 1 ≤ rounds_f + rounds_p)
    (hP : NeptuneParams.new dbg 4 d rounds_f rounds_p (pre ++ List.ofFn c0 ++ post) = some (P, r))
    (hpre : pre.length = (rounds_f + rounds_p - 1) * 4) (a b h : F) :
    Nat.card {c : Fin 4 → F // ∃ Q,
        NeptuneParams.new dbg 4 d rounds_f rounds_p (pre ++ List.ofFn c ++ post) = some (Q, r) ∧
        Neptune.compress dbg Q [a, b] = some h} = Fintype.card F ^ 3 := by
  rw [← C90_neptune_word (by omega) hfit hf hP hpre (x := [a, b, 0, 0]) rfl (i := 0) (by omega) h]
  refine Nat.card_congr (Equiv.subtypeEquivRight fun c => ?_)
  constructor
  · rintro ⟨Q, h3, h4⟩
    cases hp : Neptune.permutation dbg Q [a, b, 0, 0] with
    | none => simp [Neptune.compress, hp] at h4
    | some y => exact ⟨Q, y, h3, hp, by simpa [Neptune.compress, hp] using h4⟩
  · rintro ⟨Q, y, h3, h4, h5⟩
    exact ⟨Q, h3, by simp [Neptune.compress, h4, h5]⟩

end neptune

/-- Concrete hypotheses: the small Poseidon parameter set `exM`, `exRc3`. Of the rows for the last round exactly one in
`q` gives a chosen digest. -/
example (dbg : Bool) (a b h : _) : Nat.card {c : Fin 3 → _ // ∃ Q,
      PoseidonParams.new dbg 3 3 2 2 (rowsOf exM) (exRc3.set 3 (List.ofFn c)) = some Q ∧
      Poseidon.compress dbg Q [a, b] = some h} = 11 ^ 2 := by
  obtain ⟨P, hP⟩ := ex_new dbg
  have := C90_poseidon_compress hP ex_shaped (by omega) ((C14_bijective_iff hP ex_shaped dbg).2.mpr (by decide)) a b h
  rwa [ZMod.card] at this

end ZkHash
