import Verif.Proofs.Poseidon2Spec

set_option autoImplicit false

/-!
# Panics and lengths in the Poseidon2 permutation
-/

namespace ZkHash

namespace Poseidon2

open Spec

set_option linter.unusedSectionVars false

variable {F : Type _} [CommRing F]

theorem addAt_length {l l' : List F} {i : Nat} {x : F} (h : addAt l i x = some l') : l'.length = l.length := by
  unfold addAt at h
  simp only [Option.bind_eq_bind, Option.bind_eq_some_iff] at h
  obtain ⟨_, _, h⟩ := h
  exact setAt_length h

theorem matmulM4Step_length {l l' : List F} {i : Nat} (h : matmulM4Step l i = some l') : l'.length = l.length := by
  unfold matmulM4Step at h
  simp only [Option.bind_eq_bind, Option.bind_eq_some_iff] at h
  obtain ⟨_, _, _, _, _, _, _, _, l1, h1, l2, h2, l3, h3, h4⟩ := h
  rw [setAt_length h4, setAt_length h3, setAt_length h2, setAt_length h1]

theorem matmulM4Step_short {l : List F} {i : Nat} (h : l.length ≤ 4 * i + 3) : matmulM4Step l i = none := by
  have : l[i * 4 + 3]? = none := by simp; omega
  simp only [matmulM4Step, this]
  cases l[i * 4]? <;> cases l[i * 4 + 1]? <;> cases l[i * 4 + 2]? <;> simp

theorem matmulM4_length {t : Nat} {l l' : List F} (h : matmulM4 t l = some l') : l'.length = l.length :=
  foldlM_inv matmulM4Step (fun s => s.length = l.length) _
    (fun _ _ _ _ hs h => (matmulM4Step_length h).trans hs) l l' rfl h

theorem matmulM4_short {t : Nat} {l : List F} (ht : t % 4 = 0) (h : l.length < t) : matmulM4 t l = none := by
  apply foldlM_none_of_mem matmulM4Step (fun s => s.length = l.length) _ (t / 4 - 1)
  · rw [List.mem_range]; omega
  · intro s i s' _ hs h'; exact (matmulM4Step_length h').trans hs
  · intro s hs; apply matmulM4Step_short; omega
  · rfl

theorem matmulExternal_length {t : Nat} {l l' : List F} (h : matmulExternal t l = some l') :
    l'.length = l.length := by
  unfold matmulExternal at h
  split at h
  case h_1 =>
    simp only [Option.bind_eq_bind, Option.bind_eq_some_iff] at h
    obtain ⟨_, _, _, _, l1, h1, h2⟩ := h
    rw [addAt_length h2, addAt_length h1]
  case h_2 =>
    simp only [Option.bind_eq_bind, Option.bind_eq_some_iff] at h
    obtain ⟨_, _, _, _, _, _, l1, h1, l2, h2, h3⟩ := h
    rw [addAt_length h3, addAt_length h2, addAt_length h1]
  case h_3 => exact matmulM4_length h
  case h_9 => simp at h
  all_goals
    simp only [Option.bind_eq_bind, Option.bind_eq_some_iff] at h
    obtain ⟨l1, h1, st, _, h3⟩ := h
    refine (foldlM_inv _ (fun s => s.length = l1.length) _ ?_ l1 l' rfl h3).trans (matmulM4_length h1)
    intro s i s' _ hs h'
    simp only [Option.bind_eq_some_iff] at h'
    obtain ⟨_, _, h'⟩ := h'
    exact (addAt_length h').trans hs

theorem matmulExternal_unsupported {t : Nat} (ht : ¬Supported t) (l : List F) : matmulExternal t l = none := by
  unfold matmulExternal
  split <;> first | rfl | (exfalso; apply ht; unfold Supported; omega)

theorem matmulExternal_short {t : Nat} {l : List F} (h : l.length < t) : matmulExternal t l = none := by
  by_cases hs : Supported t
  swap; · exact matmulExternal_unsupported hs l
  rcases hs with rfl | rfl | rfl | hs
  · have : l[1]? = none := by simp; omega
    unfold matmulExternal
    rw [this]
    cases l[0]? <;> simp
  · have : l[2]? = none := by simp; omega
    unfold matmulExternal
    rw [this]
    cases l[0]? <;> cases l[1]? <;> simp
  · exact matmulM4_short (by decide) h
  · have hm := matmulM4_short (t := t) (l := l) (by omega) h
    rcases hs with rfl | rfl | rfl | rfl | rfl <;> (unfold matmulExternal; rw [hm]; rfl)

theorem matmulInternal_length {t : Nat} {l l' d : List F} (h : matmulInternal t l d = some l') :
    l'.length = l.length := by
  unfold matmulInternal at h
  split at h
  case h_1 =>
    simp only [Option.bind_eq_bind, Option.bind_eq_some_iff] at h
    obtain ⟨_, _, _, _, l1, h1, l2, h2, h3⟩ := h
    rw [addAt_length h3, setAt_length h2, addAt_length h1]
  case h_2 =>
    simp only [Option.bind_eq_bind, Option.bind_eq_some_iff] at h
    obtain ⟨_, _, _, _, _, _, l1, h1, l2, h2, l3, h3, h4⟩ := h
    rw [addAt_length h4, setAt_length h3, addAt_length h2, addAt_length h1]
  case h_9 => simp at h
  all_goals
    simp only [Option.bind_eq_bind, Option.bind_eq_some_iff] at h
    obtain ⟨_, _, h3⟩ := h
    refine foldlM_inv _ (fun s => s.length = l.length) _ ?_ l l' rfl h3
    intro s i s' _ hs h'
    simp only [Option.bind_eq_some_iff] at h'
    obtain ⟨_, _, _, _, l2, h2, h3⟩ := h'
    rw [addAt_length h3, setAt_length h2, hs]

theorem mapM_length {α β : Type _} (f : α → Option β) :
    ∀ {l : List α} {l' : List β}, l.mapM f = some l' → l'.length = l.length := by
  intro l
  induction l with
  | nil => intro l' h; simp at h; simp [h]
  | cons a l ih =>
    intro l' h
    simp only [List.mapM_cons, Option.bind_eq_bind, Option.bind_eq_some_iff, Option.pure_def,
      Option.some.injEq] at h
    obtain ⟨b, _, l2, h2, rfl⟩ := h
    simp [ih h2]

theorem fullRound_length {P : Poseidon2Params F} {s s' : List F} {r : Nat} (hs : s.length = P.t)
    (h : fullRound P s r = some s') : s'.length = P.t := by
  unfold fullRound at h
  simp only [Option.bind_eq_bind, Option.bind_eq_some_iff] at h
  obtain ⟨rc, _, s1, h1, h2⟩ := h
  have hl1 := mapM_length _ h1
  have hl2 := matmulExternal_length h2
  have hge : P.t ≤ s1.length := by
    by_contra hlt
    rw [matmulExternal_short (by omega)] at h2
    cases h2
  have : (addRc s rc).length ≤ s.length := by simp [addRc]
  omega

theorem fullRound_short {P : Poseidon2Params F} {s : List F} {r : Nat}
    (hr : (P.round_constants.getD r []).length < P.t) : fullRound P s r = none := by
  unfold fullRound
  cases hrc : P.round_constants[r]? with
  | none => simp
  | some rc =>
    have : P.round_constants.getD r [] = rc := by simp [List.getD_eq_getElem?_getD, hrc]
    rw [this] at hr
    simp only [Option.bind_eq_bind, Option.bind_some]
    cases h1 : sbox P.d (addRc s rc) with
    | none => simp
    | some s1 =>
      have hl1 := mapM_length _ h1
      have : (addRc s rc).length ≤ rc.length := by simp [addRc]
      simp only [Option.bind_some]
      exact matmulExternal_short (by omega)

theorem partialRound_length {P : Poseidon2Params F} {s s' : List F} {r : Nat} (hs : s.length = P.t)
    (h : partialRound P s r = some s') : s'.length = P.t := by
  unfold partialRound at h
  simp only [Option.bind_eq_bind, Option.bind_eq_some_iff] at h
  obtain ⟨_, _, s1, h1, _, _, _, _, s2, h2, h3⟩ := h
  rw [matmulInternal_length h3, setAt_length h2, addAt_length h1, hs]

theorem permutation_length {dbg : Bool} {P : Poseidon2Params F} {x y : List F} (h : permutation dbg P x = some y) :
    y.length = P.t := by
  unfold permutation at h
  simp only [Option.bind_eq_bind, Option.bind_eq_some_iff] at h
  obtain ⟨_, h0, s1, h1, s2, h2, p_end, -, s3, h3, h4⟩ := h
  have hx : x.length = P.t := by
    unfold assertThat at h0
    split at h0
    · next h => simpa using h
    · cases h0
  have l1 : s1.length = P.t := (matmulExternal_length h1).trans hx
  have l2 := foldlM_inv (fullRound P) (fun s => s.length = P.t) _
    (fun _ _ _ _ hs h => fullRound_length hs h) s1 s2 l1 h2
  have l3 := foldlM_inv (partialRound P) (fun s => s.length = P.t) _
    (fun _ _ _ _ hs h => partialRound_length hs h) s2 s3 l2 h3
  exact foldlM_inv (fullRound P) (fun s => s.length = P.t) _
    (fun _ _ _ _ hs h => fullRound_length hs h) s3 y l3 h4

/-- If some round panics on every state of width `t`, so does the permutation. -/
theorem permutation_none_of_full {dbg : Bool} {P : Poseidon2Params F} {r : Nat}
    (hfit : P.rounds_f_beginning + P.rounds_p < 2 ^ 64)
    (hr : r < P.rounds_f_beginning ∨ (P.rounds_f_beginning + P.rounds_p ≤ r ∧ r < P.rounds))
    (hnone : ∀ s : List F, s.length = P.t → fullRound P s r = none) (x : List F) : permutation dbg P x = none := by
  unfold permutation
  by_cases hx : x.length = P.t
  swap; · simp [assertThat, hx]
  simp only [hx, beq_self_eq_true, assertThat, if_true, uadd_fits dbg hfit, Option.bind_eq_bind, Option.bind_some]
  cases h1 : matmulExternal P.t x with
  | none => simp
  | some s1 =>
    have l1 : s1.length = P.t := (matmulExternal_length h1).trans hx
    simp only [Option.bind_some]
    rcases hr with hr | hr
    · rw [foldlM_none_of_mem (fullRound P) (fun s => s.length = P.t) _ r (List.mem_range.mpr hr)
        (fun _ _ _ _ hs h => fullRound_length hs h) hnone s1 l1]
      simp
    · cases h2 : (List.range P.rounds_f_beginning).foldlM (fullRound P) s1 with
      | none => simp
      | some s2 =>
        have l2 := foldlM_inv (fullRound P) (fun s => s.length = P.t) _
          (fun _ _ _ _ hs h => fullRound_length hs h) s1 s2 l1 h2
        simp only [Option.bind_some]
        cases h3 : (List.range' P.rounds_f_beginning
            (P.rounds_f_beginning + P.rounds_p - P.rounds_f_beginning)).foldlM (partialRound P) s2 with
        | none => simp
        | some s3 =>
          have l3 := foldlM_inv (partialRound P) (fun s => s.length = P.t) _
            (fun _ _ _ _ hs h => partialRound_length hs h) s2 s3 l2 h3
          simp only [Option.bind_some]
          apply foldlM_none_of_mem (fullRound P) (fun s => s.length = P.t) _ r _
            (fun _ _ _ _ hs h => fullRound_length hs h) hnone s3 l3
          rw [List.mem_range'_1]; omega

theorem permutation_none_of_partial {dbg : Bool} {P : Poseidon2Params F} {r : Nat}
    (hfit : P.rounds_f_beginning + P.rounds_p < 2 ^ 64)
    (hr : P.rounds_f_beginning ≤ r ∧ r < P.rounds_f_beginning + P.rounds_p)
    (hnone : ∀ s : List F, s.length = P.t → partialRound P s r = none) (x : List F) : permutation dbg P x = none := by
  unfold permutation
  by_cases hx : x.length = P.t
  swap; · simp [assertThat, hx]
  simp only [hx, beq_self_eq_true, assertThat, if_true, uadd_fits dbg hfit, Option.bind_eq_bind, Option.bind_some]
  cases h1 : matmulExternal P.t x with
  | none => simp
  | some s1 =>
    have l1 : s1.length = P.t := (matmulExternal_length h1).trans hx
    simp only [Option.bind_some]
    cases h2 : (List.range P.rounds_f_beginning).foldlM (fullRound P) s1 with
    | none => simp
    | some s2 =>
      have l2 := foldlM_inv (fullRound P) (fun s => s.length = P.t) _
        (fun _ _ _ _ hs h => fullRound_length hs h) s1 s2 l1 h2
      simp only [Option.bind_some]
      rw [foldlM_none_of_mem (partialRound P) (fun s => s.length = P.t) _ r (by rw [List.mem_range'_1]; omega)
        (fun _ _ _ _ hs h => partialRound_length hs h) hnone s2 l2]
      simp

theorem partialRound_degree {P : Poseidon2Params F} (hd : ¬(P.d = 3 ∨ P.d = 5 ∨ P.d = 7)) (s : List F) (r : Nat) :
    partialRound P s r = none := by
  unfold partialRound
  have h : ∀ x : F, sboxP P.d x = none := by
    intro x
    unfold sboxP
    split <;> simp_all
  simp only [h, Option.bind_eq_bind, Option.bind_none]
  cases get2 P.round_constants r 0 with
  | none => rfl
  | some c => simp

theorem fullRound_degree {P : Poseidon2Params F} (hd : ¬(P.d = 3 ∨ P.d = 5 ∨ P.d = 7)) (s : List F) (r : Nat) :
    fullRound P s r = none := by
  unfold fullRound
  have h : ∀ x : F, sboxP P.d x = none := by
    intro x
    unfold sboxP
    split <;> simp_all
  cases P.round_constants[r]? with
  | none => rfl
  | some rc =>
    simp only [Option.bind_eq_bind, Option.bind_some]
    cases hl : addRc s rc with
    | nil =>
      simp only [sbox, List.mapM_nil, Option.pure_def, Option.bind_some]
      by_cases ht : 0 < P.t
      · exact matmulExternal_short (by simpa using ht)
      · apply matmulExternal_unsupported
        unfold Supported; omega
    | cons a l => simp [sbox, List.mapM_cons, h]

theorem addRc_take (s rc : List F) (n : Nat) (h : s.length ≤ n) : addRc s rc = addRc s (rc.take n) := by
  unfold addRc
  apply List.ext_getElem?
  intro i
  rw [List.getElem?_zipWith, List.getElem?_zipWith, List.getElem?_take]
  by_cases hi : i < n
  · rw [if_pos hi]
  · have : s[i]? = none := by simp; omega
    rw [this]

theorem fullRound_congr {P Q : Poseidon2Params F} (ht : P.t = Q.t) (hd : P.d = Q.d) {r : Nat}
    (h : (P.round_constants[r]?).map (·.take P.t) = (Q.round_constants[r]?).map (·.take P.t)) {s : List F}
    (hs : s.length = P.t) : fullRound P s r = fullRound Q s r := by
  unfold fullRound
  rw [← ht, ← hd]
  cases h1 : P.round_constants[r]? with
  | none =>
    cases h2 : Q.round_constants[r]? with
    | none => rfl
    | some b => rw [h1, h2] at h; simp at h
  | some a =>
    cases h2 : Q.round_constants[r]? with
    | none => rw [h1, h2] at h; simp at h
    | some b =>
      rw [h1, h2] at h
      simp only [Option.map_some, Option.some.injEq] at h
      simp only [Option.bind_eq_bind, Option.bind_some]
      rw [addRc_take s a P.t (by omega), addRc_take s b P.t (by omega), h]

theorem matmulInternal_congr {t : Nat} {d1 d2 : List F} (h : 4 ≤ t → ∀ i < t, d1[i]? = d2[i]?) {s : List F}
    (hs : s.length = t) : matmulInternal t s d1 = matmulInternal t s d2 := by
  unfold matmulInternal
  split
  case h_1 => rfl
  case h_2 => rfl
  case h_9 => rfl
  all_goals
    congr 1
    funext x0
    apply foldlM_congr
    intro s' i hi
    rw [h (by omega) i (by rw [List.mem_range] at hi; omega)]

theorem partialRound_congr {P Q : Poseidon2Params F} (ht : P.t = Q.t) (hd : P.d = Q.d) {r : Nat}
    (h : (P.round_constants[r]?).bind (·[0]?) = (Q.round_constants[r]?).bind (·[0]?))
    (hdiag : 4 ≤ P.t → ∀ i < P.t, P.mat_internal_diag_m_1[i]? = Q.mat_internal_diag_m_1[i]?) {s : List F}
    (hs : s.length = P.t) : partialRound P s r = partialRound Q s r := by
  unfold partialRound
  have hg : get2 P.round_constants r 0 = get2 Q.round_constants r 0 := h
  rw [← ht, ← hd, hg]
  cases get2 Q.round_constants r 0 with
  | none => rfl
  | some c =>
    simp only [Option.bind_eq_bind, Option.bind_some]
    cases h1 : addAt s 0 c with
    | none => rfl
    | some s1 =>
      simp only [Option.bind_some]
      congr 1
      funext x0
      congr 1
      funext y0
      cases h2 : setAt s1 0 y0 with
      | none => rfl
      | some s2 =>
        simp only [Option.bind_some]
        exact matmulInternal_congr hdiag (by rw [setAt_length h2, addAt_length h1, hs])

theorem permutation_congr (dbg : Bool) (P Q : Poseidon2Params F) (hfit : P.rounds_f_beginning + P.rounds_p < 2 ^ 64)
    (ht : P.t = Q.t) (hd : P.d = Q.d) (hb : P.rounds_f_beginning = Q.rounds_f_beginning)
    (hp : P.rounds_p = Q.rounds_p) (hr : P.rounds = Q.rounds)
    (hfull : ∀ r, r < P.rounds_f_beginning ∨ (P.rounds_f_beginning + P.rounds_p ≤ r ∧ r < P.rounds) →
      (P.round_constants[r]?).map (·.take P.t) = (Q.round_constants[r]?).map (·.take P.t))
    (hpart : ∀ r, P.rounds_f_beginning ≤ r → r < P.rounds_f_beginning + P.rounds_p →
      (P.round_constants[r]?).bind (·[0]?) = (Q.round_constants[r]?).bind (·[0]?))
    (hdiag : 4 ≤ P.t → ∀ i < P.t, P.mat_internal_diag_m_1[i]? = Q.mat_internal_diag_m_1[i]?)
    (x : List F) : permutation dbg P x = permutation dbg Q x := by
  unfold permutation
  rw [← ht, ← hb, ← hp, ← hr]
  by_cases hx : x.length = P.t
  swap; · simp [assertThat, hx]
  simp only [hx, beq_self_eq_true, assertThat, if_true, uadd_fits dbg hfit, Option.bind_eq_bind, Option.bind_some]
  cases h1 : matmulExternal P.t x with
  | none => simp
  | some s1 =>
    have l1 : s1.length = P.t := (matmulExternal_length h1).trans hx
    simp only [Option.bind_some]
    rw [← foldlM_congr_inv (fullRound P) (fullRound Q) (fun s => s.length = P.t) _
      (fun _ _ _ _ hs h => fullRound_length hs h)
      (fun s i hi hs => fullRound_congr ht hd (hfull i (Or.inl (List.mem_range.mp hi))) hs) s1 l1]
    cases h2 : (List.range P.rounds_f_beginning).foldlM (fullRound P) s1 with
    | none => simp
    | some s2 =>
      have l2 := foldlM_inv (fullRound P) (fun s => s.length = P.t) _
        (fun _ _ _ _ hs h => fullRound_length hs h) s1 s2 l1 h2
      simp only [Option.bind_some]
      rw [← foldlM_congr_inv (partialRound P) (partialRound Q) (fun s => s.length = P.t) _
        (fun _ _ _ _ hs h => partialRound_length hs h)
        (fun s i hi hs => partialRound_congr ht hd
          (hpart i (by rw [List.mem_range'_1] at hi; omega) (by rw [List.mem_range'_1] at hi; omega)) hdiag hs) s2 l2]
      cases h3 : (List.range' P.rounds_f_beginning
          (P.rounds_f_beginning + P.rounds_p - P.rounds_f_beginning)).foldlM (partialRound P) s2 with
      | none => simp
      | some s3 =>
        have l3 := foldlM_inv (partialRound P) (fun s => s.length = P.t) _
          (fun _ _ _ _ hs h => partialRound_length hs h) s2 s3 l2 h3
        simp only [Option.bind_some]
        exact foldlM_congr_inv (fullRound P) (fullRound Q) (fun s => s.length = P.t) _
          (fun _ _ _ _ hs h => fullRound_length hs h)
          (fun s i hi hs => fullRound_congr ht hd
            (hfull i (Or.inr (by rw [List.mem_range'_1] at hi; omega))) hs) s3 l3

end Poseidon2

end ZkHash
