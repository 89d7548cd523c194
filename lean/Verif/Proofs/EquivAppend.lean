import Verif.Proofs.PoseidonRagged

set_option autoImplicit false

/-!
# `equivalent_round_constants` of Poseidon2 and of Poseidon: proofs
-/

namespace ZkHash

namespace EquivAppend

open Spec Matrix PoseidonRagged

section
variable {F : Type _} [Field F] [DecidableEq F]

theorem setAt_append {α : Type _} (l b : List α) {k : Nat} (hk : k < l.length) (v : α) :
    setAt (l ++ b) k v = (setAt l k v).map (· ++ b) := by
  simp only [setAt, List.length_append, hk, show k < l.length + b.length by omega, if_true, Option.map_some,
    List.set_append_left _ _ hk]

theorem equivStep_append (dbg : Bool) (rc minv : List (List F)) (rf : Nat) (st : List (List F) × List F) (i : Nat)
    (hi : i + 1 < st.1.length) (e : List (List F)) :
    Poseidon2Params.equivStep dbg rc minv rf (st.1 ++ e, st.2) i =
      (Poseidon2Params.equivStep dbg rc minv rf st i).map fun s => (s.1 ++ e, s.2) := by
  rw [equivStep_eq, equivStep_eq]
  cases matVecMul dbg minv st.2 with
  | none => rfl
  | some y =>
    simp only [Option.bind_some]
    cases y[0]? with
    | none => rfl
    | some c0 =>
      simp only [Option.bind_some, setAt_append _ e hi]
      cases setAt st.1 (i + 1) [c0] with
      | none => rfl
      | some o =>
        simp only [Option.bind_some, Option.map_some]
        cases uadd dbg rf i with
        | none => rfl
        | some idx =>
          simp only [Option.bind_some]
          cases rc[idx]? with
          | none => rfl
          | some tmp =>
            simp only [Option.bind_some]
            cases addTail y tmp <;> rfl

theorem equivStep_length {dbg : Bool} {rc minv : List (List F)} {rf : Nat} {st st' : List (List F) × List F} {i : Nat}
    (h : Poseidon2Params.equivStep dbg rc minv rf st i = some st') : st'.1.length = st.1.length := by
  rw [equivStep_eq] at h
  simp only [Option.bind_eq_some_iff] at h
  obtain ⟨y, -, c0, -, o, ho, idx, -, tmp, -, tmp', -, he⟩ := h
  cases he
  exact setAt_length ho

theorem loop_append (dbg : Bool) (rc minv : List (List F)) (rf n : Nat) (opt : List (List F)) (tmp : List F)
    (e : List (List F)) (hn : n + 1 ≤ opt.length) :
    ((List.range n).reverse).foldlM (Poseidon2Params.equivStep dbg rc minv rf) (opt ++ e, tmp) =
      (((List.range n).reverse).foldlM (Poseidon2Params.equivStep dbg rc minv rf) (opt, tmp)).map
        fun s => (s.1 ++ e, s.2) := by
  refine foldlM_map_state _ _ (fun s : List (List F) × List F => (s.1 ++ e, s.2)) (fun s => s.1.length = opt.length) _
    (fun s i s' _ hs h => by rw [equivStep_length h, hs]) (fun s i hi hs => ?_) (opt, tmp) rfl
  rw [List.mem_reverse, List.mem_range] at hi
  exact equivStep_append dbg rc minv rf s i (by omega) e

/-- Poseidon2's table is Poseidon's with a row of zeros appended, whatever the arguments. -/
theorem append (dbg : Bool) (rc mat : List (List F)) (rf R : Nat) (hR : 0 < R) (hfit : R + 1 < 2 ^ 64) :
    Poseidon2Params.equivalentRoundConstants dbg rc mat rf R =
      (PoseidonParams.equivalentRoundConstants dbg rc mat rf R).map
        fun opt => opt ++ [List.replicate (opt.getD 0 []).length 0] := by
  obtain ⟨m, rfl⟩ : ∃ m, R = m + 1 := ⟨R - 1, by omega⟩
  unfold Poseidon2Params.equivalentRoundConstants PoseidonParams.equivalentRoundConstants
  simp only [uadd_fits dbg hfit, Option.bind_eq_bind, Option.bind_some]
  cases Utils.matInverse dbg mat with
  | none => rfl
  | some minv =>
    simp only [Option.bind_some]
    cases uadd dbg rf (m + 1) with
    | none => rfl
    | some sum =>
      simp only [Option.bind_some]
      cases usub dbg sum 1 with
      | none => rfl
      | some pe =>
        simp only [Option.bind_some]
        cases rc[pe]? with
        | none => rfl
        | some tmp =>
          simp only [Option.bind_some, PoseidonParams.usub_succ]
          rw [List.replicate_succ' (n := m + 1), loop_append _ _ _ _ _ _ _ _ (by simp)]
          cases hst : ((List.range m).reverse).foldlM (Poseidon2Params.equivStep dbg rc minv rf)
              (List.replicate (m + 1) [], tmp) with
          | none => rfl
          | some st =>
            have hlen : st.1.length = m + 1 := by
              refine foldlM_inv _ (fun s : List (List F) × List F => s.1.length = m + 1) _
                (fun s i s' _ hs h => by rw [equivStep_length h, hs]) _ _ (by simp) hst
            simp only [Option.bind_some, Option.map_some]
            rw [setAt_append _ _ (by omega)]
            obtain ⟨o, ho⟩ : ∃ o, setAt st.1 0 st.2 = some o := by simp [setAt, hlen]
            have hol : o.length = m + 1 := by rw [setAt_length ho, hlen]
            rw [ho]
            simp only [Option.map_some, Option.bind_some]
            rw [List.getElem?_append_left (by omega), List.getElem?_eq_getElem (by omega)]
            simp only [Option.bind_some, setAt, List.length_append, hol, List.length_singleton,
              show m + 1 < m + 1 + 1 by omega, if_true, Option.some.injEq]
            rw [List.set_append_right _ _ (by omega), show m + 1 - o.length = 0 by omega]
            simp [List.getD_eq_getElem?_getD, List.getElem?_eq_getElem (show 0 < o.length by omega)]

end

end EquivAppend

end ZkHash
