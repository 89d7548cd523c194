import Verif.Theorems.Poseidon2
import Verif.Theorems.Utils
import Verif.Proofs.Ragged
import Verif.Spec.Suffices

set_option autoImplicit false

/-!
# Tables of any shape: C76
-/

namespace ZkHash

open Spec Matrix

namespace Poseidon2

variable {F : Type _} [CommRing F] {dbg : Bool}

theorem new_eq {t d rounds_f rounds_p : Nat} {diag : List F} {mat_internal rc : List (List F)} {P : Poseidon2Params F}
    (hP : Poseidon2Params.new dbg t d rounds_f rounds_p diag mat_internal rc = some P)
    (hfit : rounds_f + rounds_p < 2 ^ 64) :
    P = ⟨t, d, rounds_f / 2, rounds_p, rounds_f / 2, rounds_f + rounds_p, diag, mat_internal, rc⟩ ∧
      (d = 3 ∨ d = 5 ∨ d = 7 ∨ d = 11) ∧ rounds_f % 2 = 0 := by
  have hn := (not_iff_not.mpr (C05_new_panics_iff dbg t d rounds_f rounds_p diag mat_internal rc)).mp
    (by rw [hP]; simp)
  refine ⟨?_, by omega, by omega⟩
  unfold Poseidon2Params.new at hP
  have h1 : (d == 3 || d == 5 || d == 7 || d == 11) = true := by
    simp only [Bool.or_eq_true, beq_iff_eq]; omega
  have h2 : (rounds_f % 2 == 0) = true := by simp only [beq_iff_eq]; omega
  simp only [h1, h2, assertThat, if_true, uadd_fits dbg hfit, Option.bind_eq_bind, Option.bind_some, Option.pure_def,
    Option.some.injEq] at hP
  exact hP.symm

/-- Without partial rounds the diagonal is not read. -/
theorem permutation_no_partial (P : Poseidon2Params F) (diag : List F) (h : P.rounds_p = 0)
    (hfit : P.rounds_f_beginning + P.rounds_p < 2 ^ 64) (x : List F) :
    permutation dbg { P with mat_internal_diag_m_1 := diag } x = permutation dbg P x := by
  have hfit' : uadd dbg P.rounds_f_beginning P.rounds_p = some P.rounds_f_beginning := by
    rw [uadd_fits dbg hfit, h, Nat.add_zero]
  have e : fullRound { P with mat_internal_diag_m_1 := diag } = fullRound P := rfl
  unfold permutation
  rw [e]
  simp only [hfit', Option.bind_eq_bind, Option.bind_some, Nat.sub_self, List.range'_zero, List.foldlM_nil]

theorem matmulInternal_short {t : Nat} (ht : 4 ≤ t) {s diag : List F} (hs : s.length = t) (hd : diag.length < t) :
    matmulInternal t s diag = none := by
  unfold matmulInternal
  split
  · omega
  · omega
  all_goals
    first
    | rfl
    | (cases h0 : s[0]? with
       | none => rfl
       | some x0 =>
         simp only [Option.bind_eq_bind, Option.bind_some]
         refine foldlM_none_of_mem _ (fun _ => True) _ diag.length (by rw [List.mem_range]; omega)
           (fun _ _ _ _ _ _ => trivial) (fun s' _ => ?_) _ trivial
         cases s'[diag.length]? <;> simp)

theorem partialRound_short {P : Poseidon2Params F} (ht : 4 ≤ P.t) (hd : P.mat_internal_diag_m_1.length < P.t) {s : List F}
    (hs : s.length = P.t) (r : Nat) : partialRound P s r = none := by
  unfold partialRound
  cases get2 P.round_constants r 0 with
  | none => rfl
  | some rc =>
    simp only [Option.bind_eq_bind, Option.bind_some]
    have h0 : s[0]? = some s[0] := List.getElem?_eq_getElem (by omega)
    unfold addAt setAt
    simp only [h0, Option.bind_eq_bind, Option.bind_some, show 0 < s.length by omega, if_true]
    cases (s.set 0 (s[0] + rc))[0]? with
    | none => rfl
    | some x0 =>
      simp only [Option.bind_some]
      cases sboxP P.d x0 with
      | none => rfl
      | some y0 =>
        simp only [Option.bind_some, List.length_set, show 0 < s.length by omega, if_true]
        exact matmulInternal_short ht (by simp [hs]) hd

end Poseidon2

section
variable {F : Type _} [CommRing F] {dbg : Bool}

/-- **C76**, Poseidon2, value: if the tables suffice the result is the specification, even if rows of partial rounds are
shorter than `t` and rows of full rounds longer. -/
theorem C76_poseidon2_value {t d rounds_f rounds_p : Nat} {diag : List F} {mat_internal rc : List (List F)}
    {P : Poseidon2Params F} (hP : Poseidon2Params.new dbg t d rounds_f rounds_p diag mat_internal rc = some P)
    (hfit : rounds_f + rounds_p < 2 ^ 64) (ht : Supported t) (hd : rounds_f + rounds_p = 0 ∨ d ≠ 11)
    (hs : Suffices t rounds_f rounds_p diag rc) (x : Fin t → F) :
    Poseidon2.permutation dbg P (List.ofFn x) = some (List.ofFn (poseidon2 (externalMatrix t) (internalMatrix t (vec diag)) d
      (rounds_f / 2) rounds_p (tab rc) x)) := by
  obtain ⟨rfl, hd', heven⟩ := Poseidon2.new_eq hP hfit
  rcases hd with h0 | hd
  · obtain ⟨rfl, rfl⟩ : rounds_f = 0 ∧ rounds_p = 0 := by omega
    unfold Poseidon2.permutation
    simp only [List.length_ofFn, beq_self_eq_true, assertThat, if_true, Option.bind_eq_bind, Option.bind_some,
      Poseidon2.matmulExternal_ofFn ht, uadd_fits dbg (show 0 / 2 + 0 < 2 ^ 64 by norm_num), Nat.zero_div, Nat.add_zero,
      Nat.sub_self, List.range_zero, List.range'_zero, List.foldlM_nil]
    rfl
  have ht0 : 0 < t := by unfold Supported at ht; omega
  obtain ⟨rc', hrc'⟩ : ∃ rc' : List (List F), rc' = (List.range (rounds_f + rounds_p)).map fun r =>
    (rc.getD r []) ++ List.replicate t 0 := ⟨_, rfl⟩
  obtain ⟨diag', hdiag'⟩ : ∃ diag' : List F, diag' = diag ++ List.replicate t 0 := ⟨_, rfl⟩
  have hget : ∀ r < rounds_f + rounds_p, rc'[r]? = some ((rc.getD r []) ++ List.replicate t 0) := by
    intro r hr
    rw [hrc']
    simp [hr]
  have hs' : WellShaped t d rounds_f rounds_p diag' rc' := by
    refine ⟨ht, by omega, fun _ => by simp [hdiag'], by simp [hrc'], ?_, hfit⟩
    intro row hrow
    rw [hrc', List.mem_map] at hrow
    obtain ⟨r, -, rfl⟩ := hrow
    simp
  obtain ⟨P', hP'⟩ : ∃ P, Poseidon2Params.new dbg t d rounds_f rounds_p diag' mat_internal rc' = some P := by
    obtain ⟨P, h, -⟩ := C03_permutation_total (dbg := dbg) (mat_internal := mat_internal) hs' heven
    exact ⟨P, h⟩
  have hval := C01_permutation_eq_spec hP' hs' x
  obtain ⟨rfl, -, -⟩ := Poseidon2.new_eq hP' hfit
  have hspec : poseidon2 (externalMatrix t) (internalMatrix t (vec diag')) d (rounds_f / 2) rounds_p (tab rc') x =
      poseidon2 (externalMatrix t) (internalMatrix t (vec diag)) d (rounds_f / 2) rounds_p (tab rc) x := by
    have hrow : ∀ r < rounds_f + rounds_p, ∀ i < (rc.getD r []).length, tab rc' r i = tab rc r i := by
      intro r hr i hi
      simp only [tab, List.getD_eq_getElem?_getD, hget r hr, Option.getD_some] at hi ⊢
      rw [List.getElem?_append_left hi]
    have cong : ∀ (g g' : Nat → (Fin t → F) → Fin t → F) (a n : Nat), (∀ r, a ≤ r → r < a + n → g r = g' r) →
        ∀ z, rounds g a n z = rounds g' a n z := by
      intro g g' a n
      induction n with
      | zero => intro _ z; rfl
      | succ n ih =>
        intro hh z
        simp only [rounds]
        rw [ih (fun r h1 h2 => hh r h1 (by omega)), hh (a + n) (by omega) (by omega)]
    have hf : ∀ r, r < rounds_f / 2 ∨ (rounds_f / 2 + rounds_p ≤ r ∧ r < rounds_f + rounds_p) →
        fullRound (externalMatrix t) d (fun i : Fin t => tab rc' r i) = fullRound (externalMatrix t) d (fun i : Fin t => tab rc r i) := by
      intro r hr
      obtain ⟨row, h1, h2⟩ := hs.full r hr
      congr 1
      funext i
      refine hrow r (by omega) i ?_
      rw [List.getD_eq_getElem?_getD, h1]
      exact lt_of_lt_of_le i.isLt h2
    have hp : ∀ r, rounds_f / 2 ≤ r → r < rounds_f / 2 + rounds_p →
        partialRound (internalMatrix t (vec diag')) d (tab rc' r 0) = partialRound (internalMatrix t (vec diag)) d (tab rc r 0) := by
      intro r h1 h2
      obtain ⟨row, h3, h4⟩ := hs.part r h1 h2
      have hM : internalMatrix t (vec diag') = internalMatrix t (vec diag) := by
        ext i j
        simp only [internalMatrix, Matrix.of_apply]
        by_cases h4 : t < 4
        · simp only [h4, if_true]
        · have : t ≤ diag.length := by have := hs.diag; omega
          simp only [h4, if_false]
          have : vec diag' i = vec diag i := by
            simp only [vec, hdiag', List.getD_eq_getElem?_getD]
            rw [List.getElem?_append_left (by omega)]
          rw [this]
      rw [hM, hrow r (by omega) 0 (by rw [List.getD_eq_getElem?_getD, h3]; exact h4)]
    unfold poseidon2
    dsimp only
    rw [cong _ _ 0 (rounds_f / 2) (fun r _ h => hf r (by omega)), cong _ _ (rounds_f / 2) rounds_p (fun r h1 h2 => hp r h1 h2),
      cong _ _ (rounds_f / 2 + rounds_p) (rounds_f / 2) (fun r h1 h2 => hf r (by omega))]
  rw [hspec] at hval
  rw [← hval]
  have key : ∀ D : List F, (4 ≤ t → ∀ i < t, D[i]? = diag'[i]?) →
      Poseidon2.permutation dbg ⟨t, d, rounds_f / 2, rounds_p, rounds_f / 2, rounds_f + rounds_p, D, mat_internal, rc⟩
        (List.ofFn x) = Poseidon2.permutation dbg
          ⟨t, d, rounds_f / 2, rounds_p, rounds_f / 2, rounds_f + rounds_p, diag', mat_internal, rc'⟩ (List.ofFn x) := by
    intro D hD
    refine C06_noninterference
      ⟨t, d, rounds_f / 2, rounds_p, rounds_f / 2, rounds_f + rounds_p, D, mat_internal, rc⟩
      ⟨t, d, rounds_f / 2, rounds_p, rounds_f / 2, rounds_f + rounds_p, diag', mat_internal, rc'⟩ (show rounds_f / 2 + rounds_p < 2 ^ 64 by omega) rfl rfl rfl rfl rfl (fun r hr => ?_)
      (fun r h1 h2 => ?_) hD _
    · have hr : r < rounds_f / 2 ∨ (rounds_f / 2 + rounds_p ≤ r ∧ r < rounds_f + rounds_p) := hr
      obtain ⟨row, h1, h2⟩ := hs.full r hr
      have h3 := hget r (by omega)
      rw [List.getD_eq_getElem?_getD, h1] at h3
      simp only [h1, h3, Option.map_some, Option.getD_some, List.take_append_of_le_length h2]
    · have h1 : rounds_f / 2 ≤ r := h1
      have h2 : r < rounds_f / 2 + rounds_p := h2
      obtain ⟨row, h3, h4⟩ := hs.part r h1 h2
      have h5 := hget r (by omega)
      rw [List.getD_eq_getElem?_getD, h3] at h5
      simp only [h3, h5, Option.bind_some, Option.getD_some]
      rw [List.getElem?_append_left (by omega)]
  by_cases hlong : 4 ≤ t → t ≤ diag.length
  · exact key diag fun h4 i hi => by rw [hdiag', List.getElem?_append_left (by have := hlong h4; omega)]
  · have hp0 : rounds_p = 0 := by have := hs.diag; omega
    rw [← Poseidon2.permutation_no_partial _ diag' hp0 (show rounds_f / 2 + rounds_p < 2 ^ 64 by omega)]
    exact key diag' fun _ _ _ => rfl

/-- **C76**, Poseidon2: for any constructed parameters, whatever the shape of the tables, a call returns exactly if the
input has length `t`, the width is supported, the degree is usable (or there is no round) and the tables suffice. -/
theorem C76_poseidon2_returns_iff {t d rounds_f rounds_p : Nat} {diag : List F} {mat_internal rc : List (List F)}
    {P : Poseidon2Params F} (hP : Poseidon2Params.new dbg t d rounds_f rounds_p diag mat_internal rc = some P)
    (hfit : rounds_f + rounds_p < 2 ^ 64) (x : List F) :
    (∃ y, Poseidon2.permutation dbg P x = some y) ↔
      x.length = t ∧ Supported t ∧ (rounds_f + rounds_p = 0 ∨ d ≠ 11) ∧ Suffices t rounds_f rounds_p diag rc := by
  constructor
  · rintro ⟨y, hy⟩
    obtain ⟨rfl, hd', heven⟩ := Poseidon2.new_eq hP hfit
    have hne : Poseidon2.permutation dbg (⟨t, d, rounds_f / 2, rounds_p, rounds_f / 2, rounds_f + rounds_p, diag,
      mat_internal, rc⟩ : Poseidon2Params F) x ≠ none := by rw [hy]; simp
    have hfit' : rounds_f / 2 + rounds_p < 2 ^ 64 := by omega
    have hg : x.length = t ∧ Supported t := by
      by_contra hc
      refine hne (C04_permutation_guards _ x ?_)
      by_cases h : x.length = t
      · exact Or.inr fun h2 => hc ⟨h, h2⟩
      · exact Or.inl h
    refine ⟨hg.1, hg.2, ?_, ?_⟩
    · by_contra hc
      simp only [not_or, not_not] at hc
      obtain ⟨hc1, rfl⟩ := hc
      obtain ⟨P, hP', hn⟩ := C05_degree_11_unusable (dbg := dbg) (t := t) diag mat_internal rc heven (by omega) hfit
      rw [hP] at hP'
      obtain rfl := Option.some.inj hP'
      exact hne (hn x)
    · have getD_len : ∀ (r : Nat) (n : Nat), 1 ≤ n → n ≤ (rc.getD r []).length → ∃ row, rc[r]? = some row ∧ n ≤ row.length := by
        intro r n h1 h2
        rw [List.getD_eq_getElem?_getD] at h2
        cases h : rc[r]? with
        | none => rw [h] at h2; simp at h2; omega
        | some row => rw [h] at h2; exact ⟨row, rfl, h2⟩
      have ht0 : 0 < t := by have := hg.2; unfold Supported at this; omega
      refine ⟨fun r hr => getD_len r t ht0 ?_, fun r h1 h2 => getD_len r 1 le_rfl ?_, ?_⟩
      · by_contra hc
        exact hne (C07_short_rows_panic _ r hfit' (Or.inl ⟨hr, by simpa using hc⟩) x)
      · by_contra hc
        refine hne (C07_short_rows_panic _ r hfit' (Or.inr ⟨⟨h1, h2⟩, ?_⟩) x)
        exact List.length_eq_zero_iff.mp (by show (rc.getD r []).length = 0; omega)
      · by_contra hc
        refine hne (Poseidon2.permutation_none_of_partial (r := rounds_f / 2) hfit'
          ⟨le_refl _, show rounds_f / 2 < rounds_f / 2 + rounds_p by omega⟩ (fun s hs => ?_) x)
        exact Poseidon2.partialRound_short (show 4 ≤ t by omega) (show diag.length < t by omega) hs _
  · rintro ⟨hx, ht, hd, hs⟩
    obtain ⟨x, rfl⟩ := eq_ofFn x hx
    exact ⟨_, C76_poseidon2_value hP hfit ht hd hs x⟩

end

/-! ## The matrix helpers on rows of different lengths -/

theorem rows_take {F : Type _} [CommRing F] {m : Nat} (mat : List (List F)) (h : ∀ row ∈ mat, m ≤ row.length) :
    mat.map (·.take m) = rowsOf (Matrix.of fun (i : Fin mat.length) (j : Fin m) => tab mat i j) := by
  apply List.ext_getElem?
  intro i
  unfold rowsOf
  rw [List.getElem?_map, List.getElem?_ofFn]
  by_cases hi : i < mat.length
  · rw [List.getElem?_eq_getElem hi]
    simp only [Option.map_some, hi, dite_true, Option.some.injEq]
    apply List.ext_getElem?
    intro j
    rw [List.getElem?_take, List.getElem?_ofFn]
    have hl := h _ (List.getElem_mem hi)
    by_cases hj : j < m
    · have hj' : j < (mat[i]'hi).length := by omega
      simp only [hj, if_true, dite_true, Matrix.of_apply]
      rw [List.getElem?_eq_getElem hj']
      simp only [tab, List.getD_eq_getElem?_getD, List.getElem?_eq_getElem hi, Option.getD_some,
        List.getElem?_eq_getElem hj']
    · simp only [hj, if_false, dite_false]
  · rw [List.getElem?_eq_none (by omega)]
    simp only [hi, dite_false, Option.map_none]

section
variable {F : Type _} [Field F] [DecidableEq F]

/-- **C76**, `mat_inverse`: for any list of rows whatsoever, it returns exactly if there is a row, the first row has as
many entries as there are rows, no row has fewer, in debug builds all further entries are zero, and the leading principal
minors of the square part are nonzero. -/
theorem C76_matInverse_returns_iff (dbg : Bool) (mat : List (List F)) :
    (∃ R, Utils.matInverse dbg mat = some R) ↔
      0 < mat.length ∧ (mat.getD 0 []).length = mat.length ∧ (∀ row ∈ mat, mat.length ≤ row.length) ∧
      (dbg = true → ∀ row ∈ mat, ∀ v ∈ row.drop mat.length, v = 0) ∧
      ∀ k, ∀ hk : k < mat.length,
        leadingMinor (Matrix.of fun i j : Fin mat.length => tab mat i j) (k + 1) hk ≠ 0 := by
  by_cases hn : 0 < mat.length
  swap
  · have : mat = [] := List.length_eq_zero_iff.mp (by omega)
    subst this
    simp [Utils.matInverse]
  by_cases h0 : (mat.getD 0 []).length = mat.length
  swap
  · refine ⟨fun ⟨R, hR⟩ => ?_, fun h => absurd h.2.1 h0⟩
    cases mat with
    | nil => simp at hn
    | cons row rest =>
      rw [C28_matInverse_not_square dbg row rest (by simpa using h0)] at hR
      cases hR
  by_cases hl : ∀ row ∈ mat, mat.length ≤ row.length
  swap
  · refine ⟨fun ⟨R, hR⟩ => ?_, fun h => absurd h.2.2.1 hl⟩
    push Not at hl
    obtain ⟨row, hr, hlen⟩ := hl
    obtain ⟨i, hi⟩ := List.mem_iff_getElem?.mp hr
    rw [Ragged.matInverse_short dbg mat i row hi hlen] at hR
    cases hR
  rw [Ragged.matInverse_long dbg mat hn h0 hl, rows_take mat hl]
  by_cases hz : dbg = true ∧ ∃ row ∈ mat, ∃ v ∈ row.drop mat.length, v ≠ 0
  · rw [if_pos hz]
    refine ⟨fun ⟨R, hR⟩ => (by cases hR), fun h => ?_⟩
    obtain ⟨hd, row, hr, v, hv, hne⟩ := hz
    exact absurd (h.2.2.2.1 hd row hr v hv) hne
  · rw [if_neg hz, C28_matInverse_returns_iff]
    have hz' : dbg = true → ∀ row ∈ mat, ∀ v ∈ row.drop mat.length, v = 0 := by
      intro hd row hr v hv
      by_contra hne
      exact hz ⟨hd, row, hr, v, hv, hne⟩
    exact ⟨fun h => ⟨hn, h0, hl, hz', h.2⟩, fun h => ⟨hn, h.2.2.2.2⟩⟩

/-- **C76**, `mat_inverse`, value: what it returns is the inverse of the square part. -/
theorem C76_matInverse_value (dbg : Bool) (mat R : List (List F)) (h : Utils.matInverse dbg mat = some R) :
    ∃ B : Matrix (Fin mat.length) (Fin mat.length) F, R = rowsOf B ∧
      (Matrix.of fun i j : Fin mat.length => tab mat i j) * B = 1 ∧
      B * (Matrix.of fun i j : Fin mat.length => tab mat i j) = 1 := by
  obtain ⟨hn, h0, hl, hz, -⟩ := (C76_matInverse_returns_iff dbg mat).mp ⟨R, h⟩
  rw [Ragged.matInverse_long dbg mat hn h0 hl, rows_take mat hl, if_neg] at h
  · exact C27_matInverse_two_sided dbg _ R h
  · rintro ⟨hd, row, hr, v, hv, hne⟩
    exact hne (hz hd row hr v hv)

/-- **C76**, `mat_inverse`: a nonzero entry beyond the square part is the only difference between the profiles. -/
theorem C76_matInverse_profiles (mat : List (List F)) :
    Utils.matInverse true mat = Utils.matInverse false mat ∨
      (Utils.matInverse true mat = none ∧ ∃ row ∈ mat, ∃ v ∈ row.drop mat.length, v ≠ 0) := by
  by_cases hz : ∃ row ∈ mat, ∃ v ∈ row.drop mat.length, v ≠ 0
  · right
    refine ⟨?_, hz⟩
    by_contra hne
    obtain ⟨R, hR⟩ := Option.ne_none_iff_exists'.mp hne
    obtain ⟨-, -, -, h, -⟩ := (C76_matInverse_returns_iff true mat).mp ⟨R, hR⟩
    obtain ⟨row, hr, v, hv, hne⟩ := hz
    exact hne (h rfl row hr v hv)
  · left
    have hz' : ∀ row ∈ mat, ∀ v ∈ row.drop mat.length, v = 0 := by
      intro row hr v hv
      by_contra hne
      exact hz ⟨row, hr, v, hv, hne⟩
    cases h1 : Utils.matInverse true mat with
    | none =>
      cases h2 : Utils.matInverse false mat with
      | none => rfl
      | some R =>
        obtain ⟨a, b, c, -, e⟩ := (C76_matInverse_returns_iff false mat).mp ⟨R, h2⟩
        obtain ⟨R', hR'⟩ := (C76_matInverse_returns_iff true mat).mpr ⟨a, b, c, fun _ => hz', e⟩
        rw [hR'] at h1; cases h1
    | some R =>
      obtain ⟨a, b, c, -, e⟩ := (C76_matInverse_returns_iff true mat).mp ⟨R, h1⟩
      rw [← h1, Ragged.matInverse_long true mat a b c, Ragged.matInverse_long false mat a b c, rows_take mat c,
        if_neg (fun h => hz h.2), if_neg (fun h => hz h.2), C29_matInverse_profile]

/-- **C76**: such matrices exist, over every field. -/
theorem C76_matInverse_profiles_differ :
    Utils.matInverse true ([[1, 0], [0, 1, 1]] : List (List F)) = none ∧
    Utils.matInverse false ([[1, 0], [0, 1, 1]] : List (List F)) = some [[1, 0], [0, 1]] := by
  constructor
  · rcases C76_matInverse_profiles (F := F) [[1, 0], [0, 1, 1]] with h | h
    · by_contra hne
      obtain ⟨R, hR⟩ := Option.ne_none_iff_exists'.mp hne
      obtain ⟨-, -, -, hz, -⟩ := (C76_matInverse_returns_iff true _).mp ⟨R, hR⟩
      exact one_ne_zero (hz rfl [0, 1, 1] (by simp) 1 (by simp))
    · exact h.1
  · rw [Ragged.matInverse_long false [[1, 0], [0, 1, 1]] (by simp) (by simp) (by simp), if_neg (by simp)]
    have e : ([[1, 0], [0, 1, 1]] : List (List F)).map (·.take 2) = rowsOf (1 : Matrix (Fin 2) (Fin 2) F) := by
      simp [rowsOf, List.ofFn_succ]
    have e' : (([[1, 0], [0, 1, 1]] : List (List F)).map fun x => List.take ([[1, 0], [0, 1, 1]] : List (List F)).length x) =
      rowsOf (1 : Matrix (Fin 2) (Fin 2) F) := e
    rw [e', (matInverse_rowsOf false (1 : Matrix (Fin 2) (Fin 2) F) (by decide)).2]
    · rw [inv_one]
      simp [rowsOf, List.ofFn_succ]
    · intro k hk
      unfold leadingMinor
      have : (1 : Matrix (Fin 2) (Fin 2) F).submatrix (Fin.castLE hk) (Fin.castLE hk) = 1 :=
        Matrix.submatrix_one _ (Fin.castLE_injective hk)
      rw [this, det_one]
      exact one_ne_zero

end

section
variable {F : Type _} [CommRing F]

/-- **C76**, `mat_transpose`: for any list of rows, it returns exactly if there is a row and no row is shorter than the
first one; then it returns the transpose of the part that is as wide as the first row. -/
theorem C76_matTranspose (mat : List (List F)) :
    ((∃ R, Utils.matTranspose mat = some R) ↔
      0 < mat.length ∧ ∀ row ∈ mat, (mat.getD 0 []).length ≤ row.length) ∧
    ((0 < mat.length ∧ ∀ row ∈ mat, (mat.getD 0 []).length ≤ row.length) →
      Utils.matTranspose mat = some (rowsOf (Matrix.of fun (i : Fin (mat.getD 0 []).length) (j : Fin mat.length) => tab mat j i))) := by
  have hval : (0 < mat.length ∧ ∀ row ∈ mat, (mat.getD 0 []).length ≤ row.length) →
      Utils.matTranspose mat = some (rowsOf (Matrix.of fun (i : Fin (mat.getD 0 []).length) (j : Fin mat.length) => tab mat j i)) := by
    rintro ⟨hn, hl⟩
    have htake := rows_take mat hl
    have hT := C30_matTranspose (Matrix.of fun (i : Fin mat.length) (j : Fin (mat.getD 0 []).length) => tab mat i j) hn
    rw [← htake] at hT
    rw [show (Matrix.of fun (i : Fin (mat.getD 0 []).length) (j : Fin mat.length) => tab mat j i) =
      (Matrix.of fun (i : Fin mat.length) (j : Fin (mat.getD 0 []).length) => tab mat i j)ᵀ from rfl, ← hT]
    cases mat with
    | nil => simp at hn
    | cons row0 rest =>
      unfold Utils.matTranspose
      have e : ∀ (c : Nat) (tr : List (List F)), (((row0 :: rest).map (·.take c)).zipIdx).foldlM (fun tr (x : List F × Nat) =>
          (List.range c).foldlM (fun tr col => (x.1[col]?).bind fun v => set2 tr col x.2 v) tr) tr =
          ((row0 :: rest).zipIdx).foldlM (fun tr (x : List F × Nat) =>
          (List.range c).foldlM (fun tr col => (x.1[col]?).bind fun v => set2 tr col x.2 v) tr) tr := by
        intro c tr
        rw [List.zipIdx_map, List.foldlM_map]
        refine foldlM_congr _ _ _ (fun tr x _ => ?_) tr
        refine foldlM_congr _ _ _ (fun tr col hcol => ?_) tr
        simp only [Prod.map_fst, Prod.map_snd, id, List.getElem?_take, List.mem_range.mp hcol, if_true]
      have e := e row0.length (List.replicate row0.length (List.replicate (rest.length + 1) 0))
      simp only [List.map_cons, List.take_length] at e
      simp only [List.getD_cons_zero, List.map_cons, List.getElem?_cons_zero, Option.bind_eq_bind, Option.bind_some,
        List.length_cons, List.length_map, List.take_length]
      exact e.symm
  refine ⟨⟨fun ⟨R, hR⟩ => ?_, fun h => ⟨_, hval h⟩⟩, hval⟩
  have hn : 0 < mat.length := by
    rcases mat with _ | ⟨row0, rest⟩
    · cases hR
    · simp
  refine ⟨hn, ?_⟩
  by_contra hl
  push Not at hl
  obtain ⟨row, hr, hlen⟩ := hl
  obtain ⟨i, hi⟩ := List.mem_iff_getElem?.mp hr
  cases mat with
  | nil => simp at hn
  | cons row0 rest =>
    unfold Utils.matTranspose at hR
    simp only [List.getElem?_cons_zero, Option.bind_eq_bind, Option.bind_some] at hR
    rw [foldlM_none_of_mem _ (fun _ => True) _ (row, i) (List.mem_zipIdx_iff_getElem?.mpr hi)
      (fun _ _ _ _ _ _ => trivial) (fun s _ => ?_) _ trivial] at hR
    · cases hR
    · refine foldlM_none_of_mem _ (fun _ => True) _ row.length (List.mem_range.mpr hlen)
        (fun _ _ _ _ _ _ => trivial) (fun s _ => ?_) _ trivial
      simp

/-- **C76**, `mat_vec_mul`: for any list of rows and any vector, it returns exactly if no row is shorter than the vector
and, in debug builds, there are as many rows as entries of the vector; then it returns the product with the part that is as
wide as the vector is long. -/
theorem C76_matVecMul (dbg : Bool) (mat : List (List F)) (x : List F) :
    ((∃ y, matVecMul dbg mat x = some y) ↔
      (dbg = true → mat.length = x.length) ∧ ∀ row ∈ mat, x.length ≤ row.length) ∧
    (((dbg = true → mat.length = x.length) ∧ ∀ row ∈ mat, x.length ≤ row.length) →
      matVecMul dbg mat x = some (List.ofFn
        ((Matrix.of fun (i : Fin mat.length) (j : Fin x.length) => tab mat i j) *ᵥ fun j => vec x j))) := by
  have hval : ((dbg = true → mat.length = x.length) ∧ ∀ row ∈ mat, x.length ≤ row.length) →
      matVecMul dbg mat x = some (List.ofFn
        ((Matrix.of fun (i : Fin mat.length) (j : Fin x.length) => tab mat i j) *ᵥ fun j => vec x j)) := by
    rintro ⟨hd, hl⟩
    have hM := C31_matVecMul dbg (Matrix.of fun (i : Fin mat.length) (j : Fin x.length) => tab mat i j)
      (fun j => vec x j) hd
    have hx : (List.ofFn fun j : Fin x.length => vec x j) = x := by
      apply List.ext_getElem?
      intro j
      rw [List.getElem?_ofFn]
      by_cases hj : j < x.length
      · simp [hj, vec, List.getD_eq_getElem?_getD]
      · simp [hj, List.getElem?_eq_none (show x.length ≤ j by omega)]
    rw [← rows_take mat hl, hx] at hM
    rw [← hM]
    unfold matVecMul
    simp only [List.length_map]
    congr 1
    funext _
    refine foldlM_congr _ _ _ (fun out row hrow => ?_) _
    refine foldlM_congr _ _ _ (fun out p hp => ?_) _
    obtain ⟨inp, col⟩ := p
    have hcol : col < x.length := (List.getElem?_eq_some_iff.mp (List.mem_zipIdx_iff_getElem?.mp hp)).1
    have hg : get2 (mat.map (·.take x.length)) row col = get2 mat row col := by
      unfold get2
      rw [List.getElem?_map]
      cases mat[row]? with
      | none => rfl
      | some r => simp [List.getElem?_take, hcol]
    simp only [hg]
  refine ⟨⟨fun ⟨y, hy⟩ => ?_, fun h => ⟨_, hval h⟩⟩, hval⟩
  refine ⟨fun hd => ?_, ?_⟩
  · by_contra hne
    rw [hd, C31_matVecMul_debug mat x hne] at hy
    cases hy
  · by_contra hl
    push Not at hl
    obtain ⟨row, hr, hlen⟩ := hl
    obtain ⟨i, hi⟩ := List.mem_iff_getElem?.mp hr
    have hin : i < mat.length := (List.getElem?_eq_some_iff.mp hi).1
    unfold matVecMul at hy
    simp only [Option.bind_eq_bind, Option.bind_eq_some_iff] at hy
    obtain ⟨-, -, hy⟩ := hy
    rw [foldlM_none_of_mem _ (fun _ => True) _ i (List.mem_range.mpr hin) (fun _ _ _ _ _ _ => trivial)
      (fun s _ => ?_) _ trivial] at hy
    · cases hy
    · refine foldlM_none_of_mem _ (fun _ => True) _ (x[row.length], row.length)
        (List.mem_zipIdx_iff_getElem?.mpr (List.getElem?_eq_getElem hlen)) (fun _ _ _ _ _ _ => trivial) (fun s _ => ?_) _ trivial
      simp [get2, hi]

end

/-! ## Concrete cases -/

/-- Rows of one entry suffice for partial rounds: width 3, two full rounds and one partial round, over the integers. -/
example : ∃ P : Poseidon2Params ℤ, Poseidon2Params.new true 3 5 2 1 [] [] [[1, 2, 3, 99], [7], [4, 5, 6]] = some P ∧
    Suffices 3 2 1 ([] : List ℤ) [[1, 2, 3, 99], [7], [4, 5, 6]] ∧
    ¬WellShaped 3 5 2 1 ([] : List ℤ) [[1, 2, 3, 99], [7], [4, 5, 6]] ∧
    ∃ y, Poseidon2.permutation true P [1, 0, 0] = some y := by
  have hs : Suffices 3 2 1 ([] : List ℤ) [[1, 2, 3, 99], [7], [4, 5, 6]] := by
    refine ⟨fun r hr => ?_, fun r h1 h2 => ?_, by omega⟩
    · obtain rfl | rfl : r = 0 ∨ r = 2 := by omega
      · exact ⟨_, rfl, by decide⟩
      · exact ⟨_, rfl, by decide⟩
    · obtain rfl : r = 1 := by omega
      exact ⟨_, rfl, by decide⟩
  refine ⟨_, rfl, hs, fun h => ?_, ?_⟩
  · have := h.rc_rows [7] (by simp)
    simp at this
  · exact (C76_poseidon2_returns_iff (dbg := true) (t := 3) (d := 5) (rounds_f := 2) (rounds_p := 1) (diag := []) (mat_internal := [])
      (rc := [[1, 2, 3, 99], [7], [4, 5, 6]]) rfl (by norm_num) [1, 0, 0]).mpr ⟨rfl, by unfold Supported; omega, by omega, hs⟩

end ZkHash
