import Verif.Proofs.GrainTable
import Verif.Proofs.SageMatrix
import Verif.Proofs.MinpolyCheck
import Verif.Theorems.Poseidon2Instances

set_option autoImplicit false

/-!
# A check, run by the kernel, that a shipped table is the output of the script
-/

namespace ZkHash.Sage

open PoseidonSource.Fast (force force_eq)
open MinCheck (horner eqL onesDiag V E P)

/-! ## Functions -/

/-- `ws`, without the numbers that are not below `p`, begins with the given numbers, and `k` holds of the rest. -/
noncomputable def matchBelow (p : Nat) (k : List Nat → Bool) (ws : List Nat) : List Nat → Bool :=
  List.rec (motive := fun _ => List Nat → Bool)
    (fun es => List.rec (motive := fun _ => Bool) (k []) (fun _ _ _ => false) es)
    (fun w ws ih es => List.rec (motive := fun _ => Bool) (k (w :: ws))
      (fun e es' _ => Bool.rec (motive := fun _ => Bool)
        (Bool.rec (motive := fun _ => Bool) false (ih es') (Nat.beq w e)) (ih es) (Nat.ble p w)) es) ws

/-- `k` of the first `n` members, each lowered by one modulo `p`, and of the rest. -/
noncomputable def splitF (p n : Nat) : List Nat → (List Nat → List Nat → Bool) → Bool :=
  Nat.rec (motive := fun _ => List Nat → (List Nat → List Nat → Bool) → Bool) (fun ws k => k [] ws)
    (fun _ ih ws k => List.rec (motive := fun _ => Bool) false
      (fun w ws' _ => force (Nat.mod (Nat.add w (Nat.sub p 1)) p) fun x => ih ws' fun xs rest => k (x :: xs) rest) ws) n

/-- Some entry is not zero modulo `p`. -/
noncomputable def nzL (p : Nat) (a : List Nat) : Bool :=
  List.rec (motive := fun _ => Bool) false
    (fun x _ ih => Bool.rec (motive := fun _ => Bool) true ih (Nat.beq (Nat.mod x p) 0)) a

/-- For each certificate, a vector `v` and a polynomial `q`, the next `t` numbers give a matrix `M` with `q(M) v = 0`;
`k` holds of the rest. -/
noncomputable def rejects (p t : Nat) (zero : List Nat) (k : List Nat → Bool) (certs : List (List Nat × List Nat)) :
    List Nat → Bool :=
  List.rec (motive := fun _ => List Nat → Bool) k
    (fun c _ ih ws => splitF p t ws fun dm rest =>
      Nat.ble c.2.length t && (Nat.beq c.1.length t && (nzL p c.1 && (nzL p c.2 &&
        ((horner p dm c.1 c.2 zero fun r => eqL r zero) && ih rest))))) certs

/-- The drawn constants in the table `RC`. -/
def drawn (S : Poseidon2Source) : List Nat :=
  S.rc.zipIdx.flatMap fun r => if S.rounds_f / 2 ≤ r.2 ∧ r.2 < S.rounds_f / 2 + S.rounds_p then r.1.take 1 else r.1

/-- `INIT_SEQUENCE` for the instance. -/
def initOf (S : Poseidon2Source) : List Bool :=
  initGenerator 1 0 (S.modulus.log2 + 1) S.t S.rounds_f S.rounds_p

/-- The check. -/
noncomputable def scriptOk (S : Poseidon2Source) (ext blocks W : Nat) (certs : List (List Nat × List Nat)) : Bool :=
  decide ((initOf S).length = 80) && (decide (layOut S.t S.rounds_f S.rounds_p 0 (drawn S) = S.rc.flatten) &&
  (decide ((drawn S).length = S.rounds_f * S.t + S.rounds_p) &&
  (force ((initOf S).foldr (fun b x => 2 * x + b.toNat) 0) fun N =>
    force S.modulus fun p => force S.t fun t =>
    grainWords tableLit N ext blocks (S.modulus.log2 + 1) W fun ws =>
      matchBelow p (fun rest => Nat.ble t 3 || rejects p t (List.replicate t 0) (fun rest =>
        splitF p t rest fun dm _ => eqL dm S.diag) certs rest) ws (drawn S))))

/-! ## Soundness -/

theorem matchBelow_imp {p : Nat} {k : List Nat → Bool} : ∀ {ws es : List Nat}, matchBelow p k ws es = true →
    ∃ rest, takeBelow p es.length ws = some (es, rest) ∧ k rest = true := by
  intro ws
  induction ws with
  | nil =>
    intro es h
    cases es with
    | nil => exact ⟨[], rfl, h⟩
    | cons e es => cases h
  | cons w ws ih =>
    intro es h
    cases es with
    | nil => exact ⟨w :: ws, rfl, h⟩
    | cons e es =>
      have h : Bool.rec (motive := fun _ => Bool) (Bool.rec (motive := fun _ => Bool) false (matchBelow p k ws es)
        (Nat.beq w e)) (matchBelow p k ws (e :: es)) (Nat.ble p w) = true := h
      rw [List.length_cons, takeBelow]
      cases hp : Nat.ble p w with
      | true =>
        rw [hp] at h
        rw [if_pos (Nat.ble_eq.mp hp)]
        exact ih h
      | false =>
        rw [hp] at h
        have hlt : ¬ w ≥ p := fun hc => by rw [Nat.ble_eq.mpr hc] at hp; cases hp
        rw [if_neg hlt]
        cases he : Nat.beq w e with
        | false => rw [he] at h; cases h
        | true =>
          rw [he] at h
          obtain ⟨rest, h1, h2⟩ := ih h
          exact ⟨rest, by rw [h1, Option.map_some, Nat.beq_eq.mp he], h2⟩

theorem splitF_imp {p : Nat} (n : Nat) : ∀ {ws : List Nat} {k : List Nat → List Nat → Bool}, splitF p n ws k = true →
    ∃ d rest, ws = d ++ rest ∧ d.length = n ∧ k (d.map fun w => (w + (p - 1)) % p) rest = true := by
  induction n with
  | zero => intro ws k h; exact ⟨[], ws, rfl, rfl, h⟩
  | succ n ih =>
    intro ws k h
    cases ws with
    | nil => cases h
    | cons w ws =>
      have h : force ((w + (p - 1)) % p) (fun x => splitF p n ws fun xs rest => k (x :: xs) rest) = true := h
      rw [force_eq] at h
      obtain ⟨d, rest, h1, h2, h3⟩ := ih h
      exact ⟨w :: d, rest, by rw [h1]; rfl, by rw [List.length_cons, h2], h3⟩

theorem nzL_imp {p : Nat} : ∀ {a : List Nat}, nzL p a = true → ∃ i, i < a.length ∧ ((a.getD i 0 : Nat) : ZMod p) ≠ 0 := by
  intro a
  induction a with
  | nil => intro h; cases h
  | cons x a ih =>
    intro h
    have h : Bool.rec (motive := fun _ => Bool) true (nzL p a) (Nat.beq (x % p) 0) = true := h
    cases hx : Nat.beq (x % p) 0 with
    | false =>
      refine ⟨0, by simp, ?_⟩
      intro hz
      have : x % p = 0 := Nat.mod_eq_zero_of_dvd ((ZMod.natCast_eq_zero_iff x p).mp (by simpa using hz))
      rw [this] at hx
      cases hx
    | true =>
      rw [hx] at h
      obtain ⟨i, h1, h2⟩ := ih h
      exact ⟨i + 1, by simpa using h1, by simpa using h2⟩

section

variable {p t : Nat} [Fact p.Prime]

theorem P_ne_zero {l : List Nat} (h : ∃ i, i < l.length ∧ ((l.getD i 0 : Nat) : ZMod p) ≠ 0) : P p l ≠ 0 := by
  induction l with
  | nil => obtain ⟨i, hi, _⟩ := h; simp at hi
  | cons c l ih =>
    intro hz
    have hd := MinCheck.P_degree (p := p) l
    have hc : (c : ZMod p) = 0 := by
      have := congrArg (fun q => q.coeff l.length) hz
      simp only [P, Polynomial.coeff_add, Polynomial.coeff_zero, Polynomial.coeff_eq_zero_of_degree_lt hd] at this
      simpa using this
    obtain ⟨i, hi, hne⟩ := h
    cases i with
    | zero => exact hne (by simpa using hc)
    | succ i =>
      refine ih ⟨i, by simpa using hi, by simpa using hne⟩ ?_
      simpa [P, hc] using hz

theorem not_check {dm v q : List Nat} (hd : dm.length = t) (hv : v.length = t) (hq : q.length ≤ t)
    (hv0 : ∃ i, i < v.length ∧ ((v.getD i 0 : Nat) : ZMod p) ≠ 0) (hq0 : ∃ i, i < q.length ∧ ((q.getD i 0 : Nat) : ZMod p) ≠ 0)
    (h : (horner p dm v q (List.replicate t 0) fun r => eqL r (List.replicate t 0)) = true) :
    ¬ CheckMinpolyCondition (onesDiag p t dm) := by
  intro hc
  have ht : 0 < t := by
    obtain ⟨i, hi, _⟩ := hv0
    omega
  have hF : MinIrred.Full (onesDiag p t dm) := by
    have := (hc 1 le_rfl (by omega)).symm
    rwa [pow_one] at this
  obtain ⟨r, h1, h2, h3⟩ := MinCheck.horner_imp hd hv q (by simp) h
  have hz : V p t (List.replicate t 0) = 0 := by
    funext i
    simp [V]
  rw [MinCheck.eqL_imp _ h3, hz, Matrix.mulVec_zero, zero_add] at h2
  have hne := P_ne_zero hq0
  have hdeg : (P p q).natDegree < t := by
    have := MinCheck.P_degree (p := p) q
    rw [Polynomial.degree_eq_natDegree hne, Nat.cast_lt] at this
    omega
  obtain ⟨u, hu⟩ := hF.isUnit _ (hF.aeval_ne_zero hne hdeg)
  have h2 : (0 : Fin t → ZMod p) = (u : Matrix (Fin t) (Fin t) (ZMod p)).mulVec (V p t v) := by rw [hu]; exact h2
  have := congrArg (fun x => (↑u⁻¹ : Matrix (Fin t) (Fin t) (ZMod p)).mulVec x) h2
  simp only [Matrix.mulVec_mulVec, Units.inv_mul, Matrix.one_mulVec, Matrix.mulVec_zero] at this
  obtain ⟨i, hi, hne⟩ := hv0
  exact hne (congrFun this ⟨i, by omega⟩).symm

theorem circulant_eq {d : List Nat} (hd : d.length = t) :
    circulantPlusDiagonal (fun i : Fin t => ((d.getD i 0 : Nat) : ZMod p)) =
      onesDiag p t (d.map fun w => (w + (p - 1)) % p) := by
  ext i j
  have hi : i.val < d.length := by rw [hd]; exact i.2
  have hp : 1 ≤ p := (Fact.out : p.Prime).one_lt.le
  simp only [circulantPlusDiagonal, onesDiag, Matrix.add_apply, Matrix.of_apply, Matrix.diagonal_apply]
  split
  · rw [List.getD_eq_getElem d _ hi, List.getD_eq_getElem (d.map _) _ (by simpa using hi), List.getElem_map,
      ZMod.natCast_mod]
    push_cast [Nat.cast_sub hp]
    simp
  · simp

theorem drawDiagonal_of {n : Nat} {s : List Bool} {d rest : List Nat} (hd : d.length = t)
    (hy : Yields (grainRandomBits n) s (d ++ rest)) :
    ∃ s', drawDiagonal (ZMod p) n t s = some (fun i : Fin t => ((d.getD i 0 : Nat) : ZMod p), s') ∧
      Yields (grainRandomBits n) s' rest := by
  have gen : ∀ (d : List Nat) (acc : List (ZMod p)) (s : List Bool), Yields (grainRandomBits n) s (d ++ rest) →
      ∃ s', (List.range d.length).foldlM (fun (st : List (ZMod p) × List Bool) _ => do
        let x ← grainRandomBits n st.2
        pure (st.1 ++ [((x.1 : Nat) : ZMod p)], x.2)) (acc, s) = some (acc ++ d.map (fun w : Nat => (w : ZMod p)), s') ∧
        Yields (grainRandomBits n) s' rest := by
    intro d
    induction d with
    | nil => intro acc s hy; exact ⟨s, by simp, hy⟩
    | cons w d ih =>
      intro acc s hy
      cases hy with
      | cons h1 h2 =>
        obtain ⟨s', h3, h4⟩ := ih (acc ++ [((w : Nat) : ZMod p)]) _ h2
        refine ⟨s', ?_, h4⟩
        rw [List.length_cons, List.range_succ_eq_map, List.foldlM_cons]
        simp only [h1, Option.bind_eq_bind, Option.bind_some, Option.pure_def]
        rw [List.foldlM_map]
        simpa using h3
  obtain ⟨s', h1, h2⟩ := gen d [] s hy
  refine ⟨s', ?_, h2⟩
  rw [drawDiagonal, ← hd, h1]
  simp only [Option.bind_eq_bind, Option.bind_some, Option.pure_def, List.nil_append, Option.some.injEq, Prod.mk.injEq,
    and_true]
  funext i
  exact getD_map_cast p d i

theorem rejects_imp {n : Nat} {k : List Nat → Bool} (certs : List (List Nat × List Nat)) : ∀ {ws : List Nat} {s : List Bool},
    Yields (grainRandomBits n) s ws → rejects p t (List.replicate t 0) k certs ws = true →
    ∃ s' ws', drawMatrix (ZMod p) n t s = drawMatrix (ZMod p) n t s' ∧ Yields (grainRandomBits n) s' ws' ∧ k ws' = true := by
  induction certs with
  | nil => intro ws s hy h; exact ⟨s, ws, rfl, hy, h⟩
  | cons c certs ih =>
    intro ws s hy h
    have h : (splitF p t ws fun dm rest =>
      Nat.ble c.2.length t && (Nat.beq c.1.length t && (nzL p c.1 && (nzL p c.2 &&
        ((horner p dm c.1 c.2 (List.replicate t 0) fun r => eqL r (List.replicate t 0)) &&
          rejects p t (List.replicate t 0) k certs rest))))) = true := h
    obtain ⟨d, rest, rfl, hd, h⟩ := splitF_imp t h
    simp only [Bool.and_eq_true] at h
    obtain ⟨h1, h2, h3, h4, h5, h6⟩ := h
    obtain ⟨s', e1, e2⟩ := drawDiagonal_of (p := p) hd hy
    obtain ⟨s2, ws2, g1, g2, g3⟩ := ih e2 h6
    refine ⟨s2, ws2, ?_, g2, g3⟩
    rw [← g1]
    conv_lhs => rw [drawMatrix, e1]
    simp only [Option.bind_eq_bind, Option.bind_some]
    rw [if_neg]
    rw [circulant_eq hd]
    exact not_check (by rw [List.length_map, hd]) (Nat.beq_eq.mp h2) (Nat.ble_eq.mp h1) (nzL_imp h3) (nzL_imp h4) h5

end

section

variable {p t : Nat} [Fact p.Prime]

/-- What the script's matrix generator returns, when the tests on the minimal polynomials are known. -/
theorem generateMatrixPartial_of {diag : List Nat} (n : Nat) (s : List Bool) (ht : 2 ≤ t) (h2 : t = 2 → diag = [1, 2])
    (h3 : t = 3 → diag = [1, 1, 2]) (hfull : t ≠ 3 → ∀ i, 1 ≤ i → i ≤ 4 * t → MinIrred.Full (onesDiag p t diag ^ i))
    (hk : t = 3 → ∀ r, 1 ≤ r → r ≤ 12 → ((krylov3 r : Int) : ZMod p) ≠ 0)
    (hdraw : 4 ≤ t → ∃ s', drawMatrix (ZMod p) n t s = some (onesDiag p t diag, s')) :
    generateMatrixPartial (ZMod p) n t s = some (onesDiag p t diag) := by
  by_cases e3 : t = 3
  · subst e3
    have hM : (M3 : Matrix (Fin 3) (Fin 3) (ZMod p)) = onesDiag p 3 diag := by
      rw [h3 rfl]
      ext i j
      fin_cases i <;> fin_cases j <;> norm_num [M3, onesDiag]
    have hc : ∀ r, 1 ≤ r → r ≤ 12 → Algorithm2 ((M3 : Matrix (Fin 3) (Fin 3) (ZMod p)) ^ r) :=
      fun r h1 h2 => algorithm2_of_cyclic (M3_cyclic r (hk rfl r h1 h2))
    have a2 := hc 1 le_rfl (by omega)
    rw [pow_one] at a2
    have a3 : Algorithm3 (M3 : Matrix (Fin 3) (Fin 3) (ZMod p)) := fun r h1 h2 => hc r (by omega) (by omega)
    rw [← hM]
    unfold generateMatrixPartial
    have h : Algorithm1 (M3 : Matrix (Fin 3) (Fin 3) (ZMod p)) ∧ Algorithm2 (M3 : Matrix (Fin 3) (Fin 3) (ZMod p)) ∧
      Algorithm3 (M3 : Matrix (Fin 3) (Fin 3) (ZMod p)) := ⟨M3_algorithm1, a2, a3⟩
    rw [dif_neg (by omega), dif_pos rfl]
    exact if_pos h
  · have halg := algorithms_of_full ht (hfull e3)
    by_cases e2 : t = 2
    · subst e2
      have hM : (!![2, 1; 1, 3] : Matrix (Fin 2) (Fin 2) (ZMod p)) = onesDiag p 2 diag := by
        rw [h2 rfl]
        ext i j
        fin_cases i <;> fin_cases j <;> norm_num [onesDiag]
      rw [← hM] at halg ⊢
      unfold generateMatrixPartial
      rw [dif_pos rfl]
      exact if_pos halg.2
    · obtain ⟨s', hd⟩ := hdraw (by omega)
      unfold generateMatrixPartial
      rw [dif_neg e2, dif_neg e3, hd]
      exact if_pos halg.2

/-- `diag` checked: the accepted draw. -/
theorem drawMatrix_accept {n : Nat} {s : List Bool} {d rest : List Nat} (hd : d.length = t)
    (hy : Yields (grainRandomBits n) s (d ++ rest))
    (hc : CheckMinpolyCondition (onesDiag p t (d.map fun w => (w + (p - 1)) % p))) :
    ∃ s', drawMatrix (ZMod p) n t s = some (onesDiag p t (d.map fun w => (w + (p - 1)) % p), s') := by
  obtain ⟨s', e1, _⟩ := drawDiagonal_of (p := p) hd hy
  refine ⟨s', ?_⟩
  rw [drawMatrix, e1]
  simp only [Option.bind_eq_bind, Option.bind_some]
  rw [circulant_eq hd, if_pos hc]

end

/-- The check is sound. -/
theorem generate_of {S : Poseidon2Source} [Fact S.modulus.Prime] (hg : Poseidon2Good S) {ext blocks W : Nat}
    {certs : List (List Nat × List Nat)} (h : scriptOk S ext blocks W certs = true)
    (h2 : S.t = 2 → S.diag = [1, 2]) (h3 : S.t = 3 → S.diag = [1, 1, 2])
    (hfull : S.t ≠ 3 → ∀ i, 1 ≤ i → i ≤ 4 * S.t → MinIrred.Full (onesDiag S.modulus S.t S.diag ^ i))
    (hk : S.t = 3 → ∀ r, 1 ≤ r → r ≤ 12 → ((krylov3 r : Int) : ZMod S.modulus) ≠ 0) :
    generate S.modulus S.t S.rounds_f S.rounds_p =
      some (S.rc.flatten, Spec.rowsOf (Spec.externalMatrix S.t), Spec.rowsOf (onesDiag S.modulus S.t S.diag),
        List.ofFn fun i : Fin S.t => ((S.diag.getD i 0 : Nat) : ZMod S.modulus)) := by
  have ht : 2 ≤ S.t := by
    have := hg.width
    unfold Spec.Supported at this
    omega
  unfold scriptOk at h
  simp only [Bool.and_eq_true, decide_eq_true_eq, force_eq] at h
  obtain ⟨hlen, hlay, hnum, h⟩ := h
  obtain ⟨s', ws, hw, hy, _, h⟩ := grainWords_imp tableLit_eq hlen rfl h
  obtain ⟨rest, htake, h⟩ := matchBelow_imp h
  rw [hnum] at htake
  obtain ⟨s1, hrc, hy1⟩ := generateConstants_of (t := S.t) (R_F := S.rounds_f) (R_P := S.rounds_p) hy htake
  have hdraw : 4 ≤ S.t → ∃ s', drawMatrix (ZMod S.modulus) (S.modulus.log2 + 1) S.t s1 =
      some (onesDiag S.modulus S.t S.diag, s') := by
    intro h4
    have h : (Nat.ble S.t 3 || rejects S.modulus S.t (List.replicate S.t 0) (fun rest =>
        splitF S.modulus S.t rest fun dm _ => eqL dm S.diag) certs rest) = true := h
    have hf : Nat.ble S.t 3 = false := by
      cases hb : Nat.ble S.t 3 with
      | false => rfl
      | true => exact absurd (Nat.ble_eq.mp hb) (by omega)
    rw [hf, Bool.false_or] at h
    obtain ⟨s2, ws2, e1, e2, h⟩ := rejects_imp certs hy1 h
    obtain ⟨d, rest', rfl, hd, h⟩ := splitF_imp S.t h
    have hdiag := MinCheck.eqL_imp _ h
    rw [e1, ← hdiag]
    refine drawMatrix_accept hd e2 ?_
    rw [hdiag]
    exact (algorithms_of_full ht (hfull (by omega))).1
  have hpart := generateMatrixPartial_of (S.modulus.log2 + 1) s1 ht h2 h3 hfull hk hdraw
  unfold generate
  simp only [Option.bind_eq_bind, Option.pure_def]
  have hw : warmUp (initGenerator 1 0 (S.modulus.log2 + 1) S.t S.rounds_f S.rounds_p) = some s' := hw
  rw [hw, Option.bind_some, hrc, Option.bind_some, generateMatrixFull_eq hg.width, Option.bind_some]
  rw [hpart, Option.bind_some, hlay]
  simp only [onesDiag, Matrix.of_apply, if_true, add_sub_cancel_left]

end ZkHash.Sage
