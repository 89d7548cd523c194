import Verif.Theorems.Poseidon
import Verif.Theorems.Malformed
import Verif.Spec.PoseidonTables

set_option autoImplicit false

/-!
# Poseidon with tables of any shape: proofs

The constructor reads the square part of the matrix and the rows of constants of the partial rounds. The lemmas below
reduce ragged tables to the square part `sq` of the matrix and to rows `norm`alised to the width of the state.
-/

namespace ZkHash

namespace PoseidonRagged

open Spec Matrix

section
variable {F : Type _} [Field F] [DecidableEq F]

/-! ## The matrix -/

theorem rows_squarePart {t : Nat} {mds : List (List F)} (hlen : mds.length = t) (hl : ∀ row ∈ mds, t ≤ row.length) :
    mds.map (·.take t) = rowsOf (squarePart t mds) := by
  subst hlen
  exact rows_take mds hl

theorem matTranspose_sq {dbg : Bool} {t : Nat} {mds : List (List F)} (h : MatrixFits dbg t mds) (ht : 0 < t) :
    Utils.matTranspose mds = Utils.matTranspose (rowsOf (squarePart t mds)) := by
  rw [C30_matTranspose (squarePart t mds) ht]
  obtain ⟨rfl, h0, hl, -⟩ := h
  rw [(C76_matTranspose mds).2 ⟨ht, by rw [h0]; exact hl⟩]
  have key : ∀ c, c = mds.length → rowsOf (Matrix.of fun (i : Fin c) (j : Fin mds.length) => tab mds j i) =
      rowsOf (squarePart mds.length mds)ᵀ := by rintro _ rfl; rfl
  rw [key _ h0]

theorem matInverse_sq {dbg : Bool} {t : Nat} {mds : List (List F)} (h : MatrixFits dbg t mds) (ht : 0 < t) :
    Utils.matInverse dbg mds = Utils.matInverse dbg (rowsOf (squarePart t mds)) := by
  obtain ⟨rfl, h0, hl, hz⟩ := h
  rw [Ragged.matInverse_long dbg mds ht h0 hl, if_neg, rows_take mds hl]
  · rfl
  · rintro ⟨hd, row, hr, v, hv, hne⟩
    exact hne (hz hd row hr v hv)

theorem new_sq {dbg : Bool} {t : Nat} {mds : List (List F)} (h : MatrixFits dbg t mds) (ht : 0 < t)
    (d rounds_f rounds_p : Nat) (rc : List (List F)) :
    PoseidonParams.new dbg t d rounds_f rounds_p mds rc =
      (PoseidonParams.new dbg t d rounds_f rounds_p (rowsOf (squarePart t mds)) rc).map
        fun P => { P with mds := mds } := by
  have e1 : PoseidonParams.equivalentMatrices dbg mds t rounds_p =
      PoseidonParams.equivalentMatrices dbg (rowsOf (squarePart t mds)) t rounds_p := by
    unfold PoseidonParams.equivalentMatrices
    rw [matTranspose_sq h ht]
  have e2 : PoseidonParams.equivalentRoundConstants dbg rc mds (rounds_f / 2) rounds_p =
      PoseidonParams.equivalentRoundConstants dbg rc (rowsOf (squarePart t mds)) (rounds_f / 2) rounds_p := by
    unfold PoseidonParams.equivalentRoundConstants
    rw [matInverse_sq h ht]
  have e3 : (rowsOf (squarePart t mds)).length = mds.length := by rw [h.len]; simp [rowsOf]
  unfold PoseidonParams.new
  simp only [e1, e2, e3, Option.bind_eq_bind, Option.map_bind, Function.comp_def, Option.pure_def, Option.map_some]

/-- If the constructor returns, the matrix fits. -/
theorem matrixFits_of_new {dbg : Bool} {t d rounds_f rounds_p : Nat} {mds rc : List (List F)} {P : PoseidonParams F}
    (hP : PoseidonParams.new dbg t d rounds_f rounds_p mds rc = some P) : MatrixFits dbg t mds := by
  obtain ⟨-, -, -, -, hlen⟩ := Poseidon.new_args hP
  unfold PoseidonParams.new at hP
  simp only [Option.bind_eq_bind, Option.bind_eq_some_iff] at hP
  obtain ⟨_, _, _, _, _, _, n, hn, m, _, opt, hopt, _⟩ := hP
  unfold PoseidonParams.equivalentRoundConstants at hopt
  simp only [Option.bind_eq_bind, Option.bind_eq_some_iff] at hopt
  obtain ⟨R, hR, -⟩ := hopt
  obtain ⟨-, h2, h3, h4, -⟩ := (C76_matInverse_returns_iff dbg mds).mp ⟨R, hR⟩
  rw [hlen] at h2 h3 h4
  exact ⟨hlen, h2, h3, h4⟩

theorem get2_sq {t : Nat} {mds : List (List F)} (hlen : mds.length = t) (hl : ∀ row ∈ mds, t ≤ row.length)
    (i : Nat) {j : Nat} (hj : j < t) : get2 (rowsOf (squarePart t mds)) i j = get2 mds i j := by
  rw [← rows_squarePart hlen hl]
  unfold get2
  rw [List.getElem?_map]
  cases mds[i]? with
  | none => rfl
  | some r => simp [List.getElem?_take, hj]

theorem matmul_sq {t : Nat} {mds : List (List F)} (hlen : mds.length = t) (hl : ∀ row ∈ mds, t ≤ row.length)
    (dbg : Bool) (x : List F) : Poseidon.matmul dbg x mds = Poseidon.matmul dbg x (rowsOf (squarePart t mds)) := by
  unfold Poseidon.matmul
  have e3 : (rowsOf (squarePart t mds)).length = mds.length := by rw [hlen]; simp [rowsOf]
  simp only [e3]
  congr 1
  funext _
  refine foldlM_congr _ _ _ (fun out row _ => ?_) _
  refine foldlM_congr _ _ _ (fun out p hp => ?_) _
  obtain ⟨inp, col⟩ := p
  have hcol : col < t := by
    obtain ⟨k, hk⟩ := List.mem_iff_getElem?.mp hp
    rw [List.getElem?_take] at hk
    split at hk
    · rename_i hkt
      rw [List.getElem?_zipIdx] at hk
      simp only [Option.map_eq_some_iff, Prod.mk.injEq] at hk
      obtain ⟨_, _, _, h⟩ := hk
      omega
    · cases hk
  simp only [get2_sq hlen hl row hcol]

theorem matmul_length {dbg : Bool} {x y : List F} {mat : List (List F)} (h : Poseidon.matmul dbg x mat = some y) :
    y.length = mat.length := by
  unfold Poseidon.matmul at h
  simp only [Option.bind_eq_bind, Option.bind_eq_some_iff] at h
  obtain ⟨_, -, h⟩ := h
  refine foldlM_inv _ (fun s : List F => s.length = mat.length) _ (fun s i s' _ hs hstep => ?_) _ _ (by simp) h
  refine foldlM_inv _ (fun s : List F => s.length = mat.length) _ (fun s i s' _ hs hstep => ?_) _ _ hs hstep
  simp only [Option.bind_eq_some_iff] at hstep
  obtain ⟨_, _, _, _, hset⟩ := hstep
  rw [setAt_length hset, hs]

/-! ## The rows of constants -/

/-- A row cut or padded with zeros to width `t`. -/
def norm (t : Nat) (row : List F) : List F := tl t fun i => row.getD i 0

theorem norm_length (t : Nat) (row : List F) : (norm t row).length = t := tl_length _ _

theorem norm_of_length {t : Nat} {row : List F} (h : row.length = t) : norm t row = row := by
  subst h
  exact (eq_tl row 0).symm

theorem norm_take {t : Nat} {row : List F} (h : t ≤ row.length) : norm t row = row.take t := by
  apply List.ext_getElem?
  intro i
  unfold norm
  rw [tl_getElem?, List.getElem?_take]
  split
  · rw [List.getD_eq_getElem?_getD, List.getElem?_eq_getElem (by omega)]; rfl
  · rfl

theorem matVec_norm {t : Nat} (ht : 0 < t) (dbg : Bool) (A : Matrix (Fin t) (Fin t) F) (x : List F)
    (hx : x.length ≤ t) (hd : dbg = true → x.length = t) :
    matVecMul dbg (rowsOf A) x = matVecMul dbg (rowsOf A) (norm t x) := by
  have hlen : (rowsOf A).length = t := by simp [rowsOf]
  have hrow : ∀ row ∈ rowsOf A, row.length = t := by
    intro row hr
    unfold rowsOf at hr
    rw [List.mem_ofFn] at hr
    obtain ⟨i, rfl⟩ := hr
    simp
  rw [((C76_matVecMul dbg (rowsOf A) x).2 ⟨fun h => by rw [hlen, hd h], fun row hr => by rw [hrow row hr]; exact hx⟩),
    ((C76_matVecMul dbg (rowsOf A) (norm t x)).2
      ⟨fun h => by rw [hlen, norm_length], fun row hr => by rw [hrow row hr, norm_length]⟩)]
  congr 2
  funext i
  simp only [Matrix.mulVec, dotProduct, Matrix.of_apply]
  rw [Fin.sum_univ_eq_sum_range (fun j => tab (rowsOf A) i j * vec x j) x.length,
    Fin.sum_univ_eq_sum_range (fun j => tab (rowsOf A) i j * vec (norm t x) j) (norm t x).length, norm_length]
  have e : ∀ j, j < t → vec (norm t x) j = vec x j := by
    intro j hj
    simp only [vec, norm, List.getD_eq_getElem?_getD]
    rw [tl_get _ hj]
    rfl
  rw [Finset.sum_congr (rfl : Finset.range t = _) (fun j hj => by rw [e j (Finset.mem_range.mp hj)] :
    ∀ j ∈ Finset.range t, tab (rowsOf A) i j * vec (norm t x) j = tab (rowsOf A) i j * vec x j)]
  refine Finset.sum_subset (fun j hj => ?_) (fun j _ hj => ?_)
  · rw [Finset.mem_range] at *; omega
  · rw [Finset.mem_range] at hj
    rw [show vec x j = 0 by simp [vec, List.getElem?_eq_none (show x.length ≤ j by omega)], mul_zero]

theorem matVec_args {t : Nat} (ht : 0 < t) {dbg : Bool} {A : Matrix (Fin t) (Fin t) F} {x y : List F}
    (h : matVecMul dbg (rowsOf A) x = some y) :
    x.length ≤ t ∧ (dbg = true → x.length = t) ∧ y.length = t := by
  have hlen : (rowsOf A).length = t := by simp [rowsOf]
  have hrow : ∀ row ∈ rowsOf A, row.length = t := by
    intro row hr
    unfold rowsOf at hr
    rw [List.mem_ofFn] at hr
    obtain ⟨i, rfl⟩ := hr
    simp
  have hc := (C76_matVecMul dbg (rowsOf A) x).1.mp ⟨y, h⟩
  have hv := (C76_matVecMul dbg (rowsOf A) x).2 hc
  rw [hv, Option.some.injEq] at h
  refine ⟨?_, fun hd => by rw [← hc.1 hd, hlen], by rw [← h]; simp [hlen]⟩
  obtain ⟨row, hr⟩ : ∃ row, row ∈ rowsOf A := by
    cases hA : rowsOf A with
    | nil => rw [hA] at hlen; simp at hlen; omega
    | cons r l => exact ⟨r, by simp⟩
  have := hc.2 row hr
  rwa [hrow row hr] at this

/-- The addition loop of `equivStep`. -/
def addTail (y tmp : List F) : Option (List F) :=
  (List.range' 1 (y.length - 1)).foldlM (fun tmp k => do
    let cur ← tmp[k]?
    let add ← y[k]?
    setAt tmp k (cur + add)) tmp

theorem equivStep_eq (dbg : Bool) (rc minv : List (List F)) (rf : Nat) (st : List (List F) × List F) (i : Nat) :
    Poseidon2Params.equivStep dbg rc minv rf st i = (matVecMul dbg minv st.2).bind fun y =>
      (y[0]?).bind fun c0 => (setAt st.1 (i + 1) [c0]).bind fun opt => (uadd dbg rf i).bind fun index =>
      (rc[index]?).bind fun tmp => (addTail y tmp).bind fun tmp => some (opt, tmp) := rfl

theorem foldlM_map_state {σ τ ι : Type _} (f : σ → ι → Option σ) (g : τ → ι → Option τ) (φ : σ → τ) (P : σ → Prop)
    (l : List ι) (hstep : ∀ s i s', i ∈ l → P s → f s i = some s' → P s')
    (h : ∀ s i, i ∈ l → P s → g (φ s) i = (f s i).map φ) :
    ∀ s, P s → l.foldlM g (φ s) = (l.foldlM f s).map φ := by
  induction l with
  | nil => intro s _; simp
  | cons a l ih =>
    intro s hs
    rw [List.foldlM_cons, List.foldlM_cons, h s a (by simp) hs]
    cases hb : f s a with
    | none => simp
    | some s1 =>
      simp only [Option.map_some, Option.bind_eq_bind, Option.bind_some]
      exact ih (fun s i s' hi => hstep s i s' (List.mem_cons_of_mem _ hi))
        (fun s i hi => h s i (List.mem_cons_of_mem _ hi)) s1 (hstep s a s1 (by simp) hs hb)

theorem addTail_append (y a b : List F) (h : y.length ≤ a.length) :
    addTail y (a ++ b) = (addTail y a).map (· ++ b) := by
  unfold addTail
  refine foldlM_map_state _ _ (· ++ b) (fun s => s.length = a.length) _ (fun s k s' _ hs hstep => ?_) (fun s k hk hs => ?_)
    a rfl
  · simp only [Option.bind_eq_bind, Option.bind_eq_some_iff] at hstep
    obtain ⟨_, _, _, _, hset⟩ := hstep
    rw [setAt_length hset, hs]
  · rw [List.mem_range'_1] at hk
    have hk' : k < s.length := by omega
    simp only [Option.bind_eq_bind, List.getElem?_append_left hk', Option.map_bind, Function.comp_def]
    cases s[k]? with
    | none => rfl
    | some cur =>
      cases y[k]? with
      | none => rfl
      | some add =>
        simp only [Option.bind_some, setAt, List.length_append, hk', show k < s.length + b.length by omega, if_true,
          Option.map_some, List.set_append_left _ _ hk']

theorem addTail_length {y a a' : List F} (h : addTail y a = some a') : a'.length = a.length := by
  unfold addTail at h
  refine foldlM_inv _ (fun s : List F => s.length = a.length) _ (fun s i s' _ hs hstep => ?_) _ _ rfl h
  simp only [Option.bind_eq_bind, Option.bind_eq_some_iff] at hstep
  obtain ⟨_, _, _, _, hset⟩ := hstep
  rw [setAt_length hset, hs]

theorem addTail_short {y a : List F} (hy : 2 ≤ y.length) (h : a.length < y.length) : addTail y a = none := by
  unfold addTail
  refine foldlM_none_of_mem _ (fun s : List F => s.length = a.length) _ (max 1 a.length)
    (by rw [List.mem_range'_1]; omega) (fun s i s' _ hs hstep => ?_) (fun s hs => ?_) _ rfl
  · simp only [Option.bind_eq_bind, Option.bind_eq_some_iff] at hstep
    obtain ⟨_, _, _, _, hset⟩ := hstep
    rw [setAt_length hset, hs]
  · rw [List.getElem?_eq_none (by omega)]; rfl

/-- What the loop of `equivalent_round_constants` demands of the rows it reads. -/
theorem loop_args {t : Nat} (ht : 2 ≤ t) {dbg : Bool} {rc : List (List F)} {A : Matrix (Fin t) (Fin t) F} {rf : Nat} :
    ∀ (n : Nat) (opt : List (List F)) (tmp : List F) (st : List (List F) × List F), rf + n < 2 ^ 64 →
    ((List.range n).reverse).foldlM (Poseidon2Params.equivStep dbg rc (rowsOf A) rf) (opt, tmp) = some st →
    n = 0 ∨ (tmp.length ≤ t ∧ (dbg = true → tmp.length = t) ∧
      (∀ i, i < n → t ≤ (rc.getD (rf + i) []).length) ∧ (∀ i, 0 < i → i < n → (rc.getD (rf + i) []).length ≤ t)) := by
  intro n
  induction n with
  | zero => intros; left; rfl
  | succ n ih =>
    intro opt tmp st hfit h
    right
    rw [List.range_succ, List.reverse_append, List.reverse_singleton, List.singleton_append, List.foldlM_cons,
      equivStep_eq] at h
    simp only [Option.bind_eq_bind, Option.bind_eq_some_iff, uadd_fits dbg (show rf + n < 2 ^ 64 by omega),
      Option.some.injEq] at h
    obtain ⟨st1, ⟨y, hy, c0, -, opt', -, idx, rfl, row, hrow, tmp', htmp, rfl⟩, hrest⟩ := h
    obtain ⟨h1, h2, h3⟩ := matVec_args (by omega) hy
    have hget : rc.getD (rf + n) [] = row := by rw [List.getD_eq_getElem?_getD, hrow]; rfl
    have hlong : t ≤ row.length := by
      by_contra hlt
      rw [addTail_short (by omega) (by omega)] at htmp
      cases htmp
    have hl := addTail_length htmp
    refine ⟨h1, h2, ?_⟩
    rcases ih opt' tmp' st (by omega) hrest with rfl | ⟨g1, g2, g3, g4⟩
    · constructor
      · intro i hi
        obtain rfl : i = 0 := by omega
        rw [hget]; exact hlong
      · intro i h0 hi; omega
    · constructor
      · intro i hi
        rcases Nat.lt_succ_iff_lt_or_eq.mp hi with hi | rfl
        · exact g3 i hi
        · rw [hget]; exact hlong
      · intro i h0 hi
        rcases Nat.lt_succ_iff_lt_or_eq.mp hi with hi | rfl
        · exact g4 i h0 hi
        · rw [hget]; omega

/-- The rows of the partial rounds, normalised. -/
def partRows (t rf rp : Nat) (rc : List (List F)) : List (List F) := tl rp fun i => norm t (rc.getD (rf + i) [])

theorem foldlM_first {σ ι : Type _} (f : σ → ι → Option σ) (l : List ι) (hl : l ≠ []) (s s' : σ)
    (h : ∀ i, f s i = f s' i) : l.foldlM f s = l.foldlM f s' := by
  cases l with
  | nil => exact absurd rfl hl
  | cons a l => rw [List.foldlM_cons, List.foldlM_cons, h]

/-- The loop of `equivalent_round_constants` on rows that fit, reduced to normalised rows. -/
theorem loop_eq {t rf m : Nat} (ht : 0 < t) {dbg : Bool} {rc : List (List F)} (A : Matrix (Fin t) (Fin t) F)
    (hfit : rf + (m + 2) < 2 ^ 64) (h : PartialRowsFit dbg t rf (m + 2) rc) (opt : List (List F)) :
    ((List.range (m + 1)).reverse).foldlM (Poseidon2Params.equivStep dbg rc (rowsOf A) rf)
      (opt, rc.getD (rf + (m + 1)) []) =
    (((List.range (m + 1)).reverse).foldlM (Poseidon2Params.equivStep dbg (partRows t rf (m + 2) rc) (rowsOf A) 0)
      (opt, norm t (rc.getD (rf + (m + 1)) []))).map fun st => (st.1, st.2 ++ (rc.getD rf []).drop t) := by
  have hex := h.exist
  have hlast := h.last (by omega)
  have hlastd := h.last_debug (by omega)
  rw [show rf + (m + 2) - 1 = rf + (m + 1) by omega] at hlast hlastd
  rw [foldlM_first _ _ (by simp) (opt, rc.getD (rf + (m + 1)) []) (opt, norm t (rc.getD (rf + (m + 1)) [])) (by
    intro i
    rw [equivStep_eq, equivStep_eq]
    simp only [matVec_norm ht dbg A _ hlast hlastd])]
  rw [List.range_succ_eq_map, List.reverse_cons, List.foldlM_append, List.foldlM_append]
  rw [foldlM_congr (Poseidon2Params.equivStep dbg rc (rowsOf A) rf)
    (Poseidon2Params.equivStep dbg (partRows t rf (m + 2) rc) (rowsOf A) 0) _ (by
      intro s i hi
      rw [List.mem_reverse, List.mem_map] at hi
      obtain ⟨k, hk, rfl⟩ := hi
      rw [List.mem_range] at hk
      have e1 : rc[rf + (k + 1)]? = some (rc.getD (rf + (k + 1)) []) := getElem?_getD _ (by omega)
      have e2 : (partRows t rf (m + 2) rc)[0 + (k + 1)]? = some (rc.getD (rf + (k + 1)) []) := by
        unfold partRows
        rw [tl_get _ (by omega), Nat.zero_add, norm_of_length (h.middle _ (by omega) (by omega))]
      simp only [equivStep_eq, Nat.succ_eq_add_one, uadd_fits dbg (show rf + (k + 1) < 2 ^ 64 by omega),
        uadd_fits dbg (show 0 + (k + 1) < 2 ^ 64 by omega), Option.bind_some, e1, e2])]
  simp only [Option.bind_eq_bind, Option.map_bind]
  congr 1
  funext st
  have e1 : rc[rf + 0]? = some (rc.getD rf []) := getElem?_getD _ (by omega)
  have e2 : (partRows t rf (m + 2) rc)[0 + 0]? = some ((rc.getD rf []).take t) := by
    unfold partRows
    rw [tl_get _ (by omega), Nat.add_zero, norm_take (h.first (by omega))]
  simp only [List.foldlM_cons, List.foldlM_nil, Function.comp_def, Option.bind_eq_bind, Option.pure_def, Option.bind_some,
    Option.bind_fun_some, equivStep_eq, uadd_fits dbg (show rf + 0 < 2 ^ 64 by omega),
    uadd_fits dbg (show 0 + 0 < 2 ^ 64 by omega), e1, e2, Option.map_bind]
  cases hy : matVecMul dbg (rowsOf A) st.2 with
  | none => rfl
  | some y =>
    obtain ⟨-, -, hyl⟩ := matVec_args ht hy
    have hf := h.first (by omega)
    have := addTail_append y ((rc.getD rf []).take t) ((rc.getD rf []).drop t) (by
      rw [List.length_take, hyl]; omega)
    rw [List.take_append_drop] at this
    simp only [Option.bind_some, this]
    cases y[0]? with
    | none => rfl
    | some c0 =>
      simp only [Option.bind_some]
      cases setAt st.1 (0 + 1) [c0] with
      | none => rfl
      | some o =>
        simp only [Option.bind_some, Option.map_some]
        cases addTail y ((rc.getD rf []).take t) <;> rfl

/-- The first row of the optimized table. -/
def firstRow (t rf rp : Nat) (rc : List (List F)) (T : Fin t → F) : List F :=
  if rp = 1 then rc.getD rf [] else List.ofFn T ++ (rc.getD rf []).drop t

theorem partRows_rows (t rf rp : Nat) (rc : List (List F)) : ∀ row ∈ partRows t rf rp rc, row.length = t := by
  intro row hr
  unfold partRows tl at hr
  rw [List.mem_map] at hr
  obtain ⟨i, -, rfl⟩ := hr
  exact norm_length _ _

theorem partRows_length (t rf rp : Nat) (rc : List (List F)) : (partRows t rf rp rc).length = rp := tl_length _ _

theorem equivalentRoundConstants_fit {t rf rp : Nat} (ht : 0 < t) {dbg : Bool} {rc : List (List F)}
    (M : Matrix (Fin t) (Fin t) F) (hM : PoseidonParams.GoodMinors M) (hp : 0 < rp) (hfit : rf + rp < 2 ^ 64)
    (h : PartialRowsFit dbg t rf rp rc) :
    PoseidonParams.equivalentRoundConstants dbg rc (rowsOf M) rf rp =
      some (tl rp fun i =>
        if i = 0 then firstRow t rf rp rc (PoseidonParams.tSeq M⁻¹ (tab (partRows t rf rp rc)) 0 rp 0)
        else [(M⁻¹ *ᵥ PoseidonParams.tSeq M⁻¹ (tab (partRows t rf rp rc)) 0 rp i) ⟨0, ht⟩]) := by
  have hex := h.exist
  unfold PoseidonParams.equivalentRoundConstants
  obtain ⟨R', rfl⟩ : ∃ R', rp = R' + 1 := ⟨rp - 1, by omega⟩
  have hget : rc[rf + R']? = some (rc.getD (rf + R') []) := getElem?_getD _ (by omega)
  simp only [PoseidonParams.matInverse_good dbg M ht hM, Option.bind_eq_bind, Option.bind_some, uadd_fits dbg hfit,
    show rf + (R' + 1) = (rf + R') + 1 by omega, PoseidonParams.usub_succ, hget]
  cases R' with
  | zero =>
    simp only [List.range_zero, List.reverse_nil, List.foldlM_nil, Option.pure_def, Option.bind_some, setAt, firstRow]
    simp [tl]
  | succ m =>
    rw [loop_eq ht M⁻¹ hfit h]
    have hlast : norm t (rc.getD (rf + (m + 1)) []) =
        List.ofFn (PoseidonParams.tSeq M⁻¹ (tab (partRows t rf (m + 2) rc)) 0 (m + 2) (m + 2 - 1)) := by
      unfold norm
      rw [tl_eq_ofFn]
      congr 1
      funext i
      rw [PoseidonParams.tSeq_step _ _ _ _ _ (by omega), show m + 2 - 1 + 1 = m + 2 by omega, PoseidonParams.tSeq_last]
      have : (partRows t rf (m + 2) rc).getD (0 + (m + 2 - 1)) [] = norm t (rc.getD (rf + (m + 1)) []) := by
        unfold partRows
        rw [List.getD_eq_getElem?_getD, tl_get _ (by omega)]
        simp
      simp only [tab, this, Matrix.mulVec_zero, Pi.zero_apply, ite_self, add_zero, norm]
      rw [List.getD_eq_getElem?_getD (l := tl _ _), tl_get _ i.isLt]
      rfl
    rw [hlast]
    have := PoseidonParams.equivRcLoop (R := m + 2) (L := m + 2) ht dbg (partRows t rf (m + 2) rc) M⁻¹ 0 (by omega)
      (le_refl _) (by rw [partRows_length]; omega) (by omega) (partRows_rows _ _ _ _)
    rw [show m + 2 - 1 = m + 1 by omega] at this ⊢
    rw [this, Option.map_some, Option.bind_some, setAt_tl _ _ (by omega)]
    congr 1
    apply tl_congr
    intro i hi
    by_cases h0 : i = 0
    · subst h0
      rw [Function.update_self, if_pos rfl, firstRow, if_neg (by omega)]
    · rw [Function.update_of_ne h0, if_pos (by omega), if_neg h0]

theorem partialRowsFit_of {t rf rp : Nat} (ht : 2 ≤ t) {dbg : Bool} {rc opt : List (List F)}
    (M : Matrix (Fin t) (Fin t) F) (hp : 0 < rp) (hfit : rf + rp < 2 ^ 64)
    (h : PoseidonParams.equivalentRoundConstants dbg rc (rowsOf M) rf rp = some opt) :
    PartialRowsFit dbg t rf rp rc := by
  by_cases hM : PoseidonParams.GoodMinors M
  swap
  · simp [PoseidonParams.equivalentRoundConstants, PoseidonParams.matInverse_bad dbg M hM] at h
  unfold PoseidonParams.equivalentRoundConstants at h
  obtain ⟨R', rfl⟩ : ∃ R', rp = R' + 1 := ⟨rp - 1, by omega⟩
  simp only [PoseidonParams.matInverse_good dbg M (by omega) hM, Option.bind_eq_bind, Option.bind_some,
    uadd_fits dbg hfit, show rf + (R' + 1) = (rf + R') + 1 by omega, PoseidonParams.usub_succ,
    Option.bind_eq_some_iff] at h
  obtain ⟨tmp, htmp, st, hst, -⟩ := h
  have hex : rf + R' < rc.length := (List.getElem?_eq_some_iff.mp htmp).1
  have hget : rc.getD (rf + R') [] = tmp := by rw [List.getD_eq_getElem?_getD, htmp]; rfl
  rcases loop_args ht R' _ _ _ (by omega) hst with rfl | ⟨h1, h2, h3, h4⟩
  · exact ⟨by omega, by omega, by omega, by omega, by omega⟩
  · refine ⟨by omega, fun h => h3 0 (by omega), fun r hr hr' => ?_, fun _ => ?_, fun _ hd => ?_⟩
    · obtain ⟨i, rfl⟩ : ∃ i, r = rf + i := ⟨r - rf, by omega⟩
      exact le_antisymm (h4 i (by omega) (by omega)) (h3 i (by omega))
    · rw [show rf + (R' + 1) - 1 = rf + R' by omega, hget]; exact h1
    · rw [show rf + (R' + 1) - 1 = rf + R' by omega, hget]; exact h2 hd

/-- Everything the constructor computes from tables that fit. -/
theorem new_fit {s : Nat} (dbg : Bool) (hs : 0 < s) {d rounds_f rounds_p : Nat} {mds rc : List (List F)}
    (hd : d = 3 ∨ d = 5 ∨ d = 7) (heven : rounds_f % 2 = 0) (hp : 0 < rounds_p) (hfit : rounds_f + rounds_p < 2 ^ 64)
    (hM : MatrixFits dbg (s + 1) mds) (hm : PoseidonParams.GoodMinors (squarePart (s + 1) mds))
    (hb : PoseidonParams.GoodBlocks (squarePart (s + 1) mds) rounds_p)
    (h : PartialRowsFit dbg (s + 1) (rounds_f / 2) rounds_p rc) :
    PoseidonParams.new dbg (s + 1) d rounds_f rounds_p mds rc = some
      { t := s + 1, d, rounds_f_beginning := rounds_f / 2, rounds_p, rounds_f_end := rounds_f / 2
        rounds := rounds_f + rounds_p, mds, round_constants := rc
        opt_round_constants := tl rounds_p fun i =>
          if i = 0 then firstRow (s + 1) (rounds_f / 2) rounds_p rc (PoseidonParams.tSeq (squarePart (s + 1) mds)⁻¹
            (tab (partRows (s + 1) (rounds_f / 2) rounds_p rc)) 0 rounds_p 0)
          else [((squarePart (s + 1) mds)⁻¹ *ᵥ PoseidonParams.tSeq (squarePart (s + 1) mds)⁻¹
            (tab (partRows (s + 1) (rounds_f / 2) rounds_p rc)) 0 rounds_p i) ⟨0, Nat.succ_pos s⟩]
        w_hat := tl rounds_p fun k => List.ofFn (PoseidonParams.wOf (PoseidonParams.dSeq (squarePart (s + 1) mds) k * squarePart (s + 1) mds)ᵀ)
        v := tl rounds_p fun k => List.ofFn (PoseidonParams.vOf (PoseidonParams.dSeq (squarePart (s + 1) mds) k * squarePart (s + 1) mds)ᵀ)
        m_i := rowsOf (PoseidonParams.dSeq (squarePart (s + 1) mds) rounds_p) } := by
  rw [new_sq hM (Nat.succ_pos s)]
  have h1 : (d == 3 || d == 5 || d == 7) = true := by simpa [or_assoc] using hd
  have h2 : ((rowsOf (squarePart (s + 1) mds)).length == s + 1) = true := by simp [rowsOf]
  have h3 : (rounds_f % 2 == 0) = true := by simpa using heven
  unfold PoseidonParams.new
  simp only [assertThat, h1, h2, h3, if_true, uadd_fits dbg hfit, Option.bind_eq_bind, Option.bind_some,
    PoseidonParams.equivalentMatrices_good hs dbg (squarePart (s + 1) mds) rounds_p hp hb,
    equivalentRoundConstants_fit (Nat.succ_pos s) (squarePart (s + 1) mds) hm hp
      (show rounds_f / 2 + rounds_p < 2 ^ 64 by omega) h, Option.pure_def, Option.map_some]

/-- Conversely, a constructor that returns was given tables that fit. -/
theorem fit_of_new {s : Nat} {dbg : Bool} {d rounds_f rounds_p : Nat} {mds rc : List (List F)} {P : PoseidonParams F}
    (hfit : rounds_f + rounds_p < 2 ^ 64)
    (hP : PoseidonParams.new dbg (s + 1) d rounds_f rounds_p mds rc = some P) :
    MatrixFits dbg (s + 1) mds ∧ PoseidonParams.GoodMinors (squarePart (s + 1) mds) ∧
    PoseidonParams.GoodBlocks (squarePart (s + 1) mds) rounds_p ∧
    PartialRowsFit dbg (s + 1) (rounds_f / 2) rounds_p rc := by
  have hM := matrixFits_of_new hP
  obtain ⟨-, -, hp, ht, -⟩ := Poseidon.new_args hP
  rw [new_sq hM (by omega)] at hP
  obtain ⟨P', hP, -⟩ := Option.map_eq_some_iff.mp hP
  unfold PoseidonParams.new at hP
  simp only [Option.bind_eq_bind, Option.bind_eq_some_iff] at hP
  obtain ⟨_, _, _, _, _, _, n, hn, m, hm, opt, hopt, _⟩ := hP
  have hfit' : rounds_f / 2 + rounds_p < 2 ^ 64 := by omega
  refine ⟨hM, ?_, ?_, partialRowsFit_of (by omega) _ hp hfit' hopt⟩
  · by_contra hbad
    simp [PoseidonParams.equivalentRoundConstants, PoseidonParams.matInverse_bad dbg _ hbad] at hopt
  · by_contra hbad
    rw [PoseidonParams.equivalentMatrices_bad (by omega) dbg _ rounds_p hbad] at hm
    cases hm

end

end PoseidonRagged

end ZkHash
