import Verif.Proofs.R1CS
import Verif.Theorems.Compress
import Verif.Theorems.Merkle
import Verif.Theorems.ShippedOther

set_option autoImplicit false

/-!
# The permutations as constraint systems: C74
-/

namespace ZkHash

open Spec Matrix Merkle

variable {dbg : Bool}

theorem pow_degrees {d : Nat} (hd : d = 3 ∨ d = 5 ∨ d = 7) : d = 2 ∨ d = 3 ∨ d = 5 ∨ d = 7 := Or.inr hd

/-- **C74** for Poseidon2: the permutation of every well-shaped parameter set is a system of
`mulCost d * (t * rounds_f + rounds_p)` constraints, which depends on the parameters only. -/
theorem C74_poseidon2 {F : Type} [CommRing F] {t d rounds_f rounds_p : Nat} {diag : List F}
    {mat_internal rc : List (List F)} {P : Poseidon2Params F}
    (hP : Poseidon2Params.new dbg t d rounds_f rounds_p diag mat_internal rc = some P)
    (hs : WellShaped t d rounds_f rounds_p diag rc) :
    ∃ C : R1CS F (Fin t) (Fin t) (mulCost d * (t * rounds_f + rounds_p)),
      C.Represents (Poseidon2.permutation dbg P) := by
  have heven : rounds_f % 2 = 0 := by
    by_contra h
    rw [(C05_new_panics_iff dbg t d rounds_f rounds_p diag mat_internal rc).mpr (Or.inr (Or.inl (by omega)))] at hP
    cases hP
  have hw := hs.width
  have ht : 0 < t := by unfold Supported at hw; omega
  have h := Arith.Has.poseidon2 (pow_degrees hs.degree) ht (externalMatrix t) (internalMatrix t (vec diag))
    (rounds_f / 2) rounds_p (tab rc)
  rw [show 2 * (rounds_f / 2) = rounds_f by omega] at h
  exact h.represents fun x => C01_permutation_eq_spec hP hs x

/-- **C74** for Poseidon: likewise, and the same system represents the optimized and the plain function. -/
theorem C74_poseidon {F : Type} [Field F] [DecidableEq F] {t d rounds_f rounds_p : Nat} {M : Matrix (Fin t) (Fin t) F}
    {rc : List (List F)} {P : PoseidonParams F}
    (hP : PoseidonParams.new dbg t d rounds_f rounds_p (rowsOf M) rc = some P)
    (hs : PoseidonShaped t rounds_f rounds_p rc) (dbg' : Bool) :
    ∃ C : R1CS F (Fin t) (Fin t) (mulCost d * (t * rounds_f + rounds_p)),
      C.Represents (Poseidon.permutation dbg' P) ∧ C.Represents (Poseidon.permutationNotOpt dbg' P) := by
  obtain ⟨hd, heven, -, ht, -⟩ := Poseidon.new_args hP
  have h := Arith.Has.poseidon (pow_degrees hd) (by omega) M (rounds_f / 2) rounds_p (tab rc)
  rw [show 2 * (rounds_f / 2) = rounds_f by omega] at h
  obtain ⟨C, hC⟩ := h.represents fun x => C12_permutation_eq_spec hP hs dbg' x
  refine ⟨C, hC, ?_⟩
  have : Poseidon.permutationNotOpt dbg' P = Poseidon.permutation dbg' P :=
    funext fun x => (C12_optimized_eq_plain hP hs dbg' x).symm
  rw [this]
  exact hC

/-- **C74** for GMiMC: `mulCost d * rounds` constraints. -/
theorem C74_gmimc {F : Type} [CommRing F] (dbg : Bool) {t d rounds : Nat} (ht : 0 < t) (hr : 0 < rounds) {stream rest : List F}
    {P : GmimcParams F} (hlen : rounds ≤ stream.length) (hP : GmimcParams.new t d rounds stream = some (P, rest)) :
    ∃ C : R1CS F (Fin t) (Fin t) (mulCost d * rounds),
      C.Represents (Gmimc.permutation dbg P) ∧ C.Represents (Gmimc.permutationNotOpt dbg P) := by
  obtain ⟨h1, h2⟩ := C21_new t d rounds stream hlen
  obtain ⟨rfl, hl, -⟩ := h2 P rest hP
  have hd : d = 3 ∨ d = 5 ∨ d = 7 := by
    by_contra h
    rw [h1.mpr (by omega)] at hP
    cases hP
  obtain ⟨n, rfl⟩ : ∃ n, rounds = n + 1 := ⟨rounds - 1, by omega⟩
  obtain ⟨s, rfl⟩ : ∃ s, t = s + 1 := ⟨t - 1, by omega⟩
  obtain ⟨C, hC⟩ := (Arith.Has.gmimc (s := s) (pow_degrees hd) (vec (stream.take (n + 1))) n).represents fun x =>
    C19_permutation_eq_spec (s := s) (n := n) dbg ⟨s + 1, d, n + 1, stream.take (n + 1)⟩ rfl rfl hd hl.ge x
  refine ⟨C, hC, ?_⟩
  have : Gmimc.permutationNotOpt dbg (⟨s + 1, d, n + 1, stream.take (n + 1)⟩ : GmimcParams F) =
      Gmimc.permutation dbg ⟨s + 1, d, n + 1, stream.take (n + 1)⟩ :=
    funext fun x => (C19_optimized_eq_plain dbg _ x).symm
  rw [this]
  exact hC

/-- **C74** for Neptune: `t * rounds_f + mulCost d * rounds_p` constraints. -/
theorem C74_neptune {F : Type} [Field F] [DecidableEq F] {t d rounds_f rounds_p : Nat} (ht : 0 < t) {s r : List F}
    {P : NeptuneParams F} (h : NeptuneParams.new dbg t d rounds_f rounds_p s = some (P, r))
    (hfit : rounds_f + rounds_p < 2 ^ 64) :
    ∃ C : R1CS F (Fin t) (Fin t) (t * rounds_f + mulCost d * rounds_p), C.Represents (Neptune.permutation dbg P) := by
  obtain ⟨k, rfl⟩ : ∃ k, t = 2 * k := ⟨t / 2, by have := NeptuneParams.new_even h; omega⟩
  obtain ⟨M, -, hM⟩ := C25_permutation_eq_spec (by omega) h hfit
  have hd := (C51_constructor_iff.mp h).1
  have hev := (C51_constructor_iff.mp h).2.1
  have h' := Arith.Has.neptune (k := k) (pow_degrees hd) (by omega) M (neptuneInternal (2 * k) (vec P.mu)) P.abc.2.2
    (rounds_f / 2) rounds_p (tab P.round_constants)
  rw [show 2 * (rounds_f / 2) = rounds_f by omega] at h'
  exact h'.represents hM

/-- A permutation with a system gives a compression with a system of the same size. -/
theorem Arith.compress {F : Type} [CommRing F] {t m : Nat} (ht : 0 < t) {f : (Fin t → F) → Fin t → F} (hf : Arith.Has m f)
    {c : List F → Option F} (pad : F → F → Fin t → F) (hpad : ∀ a b i, pad a b i = if i.val = 0 then a else if i.val = 1 then b else 0)
    (hc : ∀ a b, c [a, b] = some (f (pad a b) ⟨0, ht⟩)) :
    ∃ C : R1CS F (Fin 2) (Fin 1) m, C.Represents fun l => (c l).map fun y => [y] := by
  have h1 := (hf.after (g := fun y : Fin 2 → F => pad (y 0) (y 1)) ?_).then
    (g := fun y (_ : Fin 1) => y ⟨0, ht⟩) fun _ => Aff.coord _
  · refine h1.represents fun x => ?_
    have e : List.ofFn x = [x 0, x 1] := by simp [List.ofFn_succ]
    rw [e, hc]
    simp
  · intro i
    simp only [hpad]
    exact Aff.ite (Aff.coord _) (Aff.ite (Aff.coord _) (Aff.const 0))

/-- **C74**, compressions of two elements (width 3; width 4 for Neptune): a system of the same number of constraints, with
two inputs and one result. -/
theorem C74_compress_poseidon2 {F : Type} [CommRing F] {d rounds_f rounds_p : Nat} {diag : List F}
    {mat_internal rc : List (List F)} {P : Poseidon2Params F}
    (hP : Poseidon2Params.new dbg 3 d rounds_f rounds_p diag mat_internal rc = some P)
    (hs : WellShaped 3 d rounds_f rounds_p diag rc) :
    ∃ C : R1CS F (Fin 2) (Fin 1) (mulCost d * (3 * rounds_f + rounds_p)),
      C.Represents fun l => (Poseidon2.compress dbg P l).map fun y => [y] := by
  have heven : rounds_f % 2 = 0 := by
    by_contra h
    rw [(C05_new_panics_iff dbg 3 d rounds_f rounds_p diag mat_internal rc).mpr (Or.inr (Or.inl (by omega)))] at hP
    cases hP
  have h := Arith.Has.poseidon2 (t := 3) (pow_degrees hs.degree) (by omega) (externalMatrix 3)
    (internalMatrix 3 (vec diag)) (rounds_f / 2) rounds_p (tab rc)
  rw [show 2 * (rounds_f / 2) = rounds_f by omega] at h
  refine Arith.compress (by omega) h (fun a b => ![a, b, 0]) (fun a b i => ?_) fun a b => C42_poseidon2_value hP hs a b []
  fin_cases i <;> simp

/-- **C74**, compression with Poseidon. -/
theorem C74_compress_poseidon {F : Type} [Field F] [DecidableEq F] {d rounds_f rounds_p : Nat} {M : Matrix (Fin 3) (Fin 3) F}
    {rc : List (List F)} {P : PoseidonParams F}
    (hP : PoseidonParams.new dbg 3 d rounds_f rounds_p (rowsOf M) rc = some P)
    (hs : PoseidonShaped 3 rounds_f rounds_p rc) (dbg' : Bool) :
    ∃ C : R1CS F (Fin 2) (Fin 1) (mulCost d * (3 * rounds_f + rounds_p)),
      C.Represents fun l => (Poseidon.compress dbg' P l).map fun y => [y] := by
  obtain ⟨hd, heven, -, -, -⟩ := Poseidon.new_args hP
  have h := Arith.Has.poseidon (pow_degrees hd) (by omega) M (rounds_f / 2) rounds_p (tab rc)
  rw [show 2 * (rounds_f / 2) = rounds_f by omega] at h
  refine Arith.compress (by omega) h (fun a b => ![a, b, 0]) (fun a b i => ?_)
    fun a b => C42_poseidon_value hP hs dbg' a b []
  fin_cases i <;> simp

/-- **C74**, compression with GMiMC. -/
theorem C74_compress_gmimc {F : Type} [CommRing F] (dbg : Bool) {d rounds : Nat} (hr : 0 < rounds) {stream rest : List F}
    {P : GmimcParams F} (hlen : rounds ≤ stream.length) (hP : GmimcParams.new 3 d rounds stream = some (P, rest)) :
    ∃ C : R1CS F (Fin 2) (Fin 1) (mulCost d * rounds),
      C.Represents fun l => (Gmimc.compress dbg P l).map fun y => [y] := by
  obtain ⟨h1, h2⟩ := C21_new 3 d rounds stream hlen
  obtain ⟨rfl, hl, -⟩ := h2 P rest hP
  have hd : d = 3 ∨ d = 5 ∨ d = 7 := by
    by_contra h
    rw [h1.mpr (by omega)] at hP
    cases hP
  obtain ⟨n, rfl⟩ : ∃ n, rounds = n + 1 := ⟨rounds - 1, by omega⟩
  refine Arith.compress (t := 3) (by omega) (Arith.Has.gmimc (s := 2) (pow_degrees hd) (vec (stream.take (n + 1))) n)
    (fun a b => ![a, b, 0]) (fun a b i => ?_)
    fun a b => C42_gmimc_value dbg ⟨3, d, n + 1, stream.take (n + 1)⟩ rfl rfl hd hl.ge a b []
  fin_cases i <;> simp

/-- **C74**, compression with Neptune. -/
theorem C74_compress_neptune {F : Type} [Field F] [DecidableEq F] {d rounds_f rounds_p : Nat} {s r : List F}
    {P : NeptuneParams F} (h : NeptuneParams.new dbg 4 d rounds_f rounds_p s = some (P, r))
    (hfit : rounds_f + rounds_p < 2 ^ 64) :
    ∃ C : R1CS F (Fin 2) (Fin 1) (4 * rounds_f + mulCost d * rounds_p),
      C.Represents fun l => (Neptune.compress dbg P l).map fun y => [y] := by
  obtain ⟨hd, hev, -⟩ := (C51_constructor_iff (k := 2)).mp h
  obtain ⟨M, -, hM⟩ := C42_neptune_value h hfit
  clear h hfit
  have h' := Arith.Has.neptune (k := 2) (pow_degrees hd) (by omega) M (neptuneInternal 4 (vec P.mu)) P.abc.2.2
    (rounds_f / 2) rounds_p (tab P.round_constants)
  have e : 2 * 2 * (2 * (rounds_f / 2)) + mulCost d * rounds_p = 4 * rounds_f + mulCost d * rounds_p := by omega
  rw [e] at h'
  generalize 4 * rounds_f + mulCost d * rounds_p = N at *
  refine Arith.compress (t := 2 * 2) (by omega) h' (fun a b => ![a, b, 0, 0]) (fun a b i => ?_) fun a b => hM a b []
  obtain ⟨i, hi⟩ := i
  interval_cases i <;> rfl

/-- **C74**, Merkle trees: if the compression is a system of `m` constraints, the root of `n` leaves is a system of
`m * (2 ^ depth - 1)` constraints, `depth` being the depth of the padded tree. -/
theorem C74_merkle {F : Type} [CommRing F] (dbg : Bool) {m : Nat} {c : List F → Option F} {C : R1CS F (Fin 2) (Fin 1) m}
    (hC : C.Represents fun l => (c l).map fun y => [y]) {n : Nat} (hn : 0 < n) (hlen : n ≤ 2 ^ 63) :
    ∃ D : R1CS F (Fin n) (Fin 1) (m * (2 ^ depth n - 1)),
      D.Represents fun set => (accumulate dbg c set).map fun y => [y] := by
  obtain ⟨f, hf, hcf⟩ := Arith.Has.of_represents hC
  have hc : ∀ a b, c [a, b] = some (f ![a, b] 0) := by
    intro a b
    have := hcf ![a, b]
    have e : List.ofFn ![a, b] = [a, b] := by simp [List.ofFn_succ]
    rw [e] at this
    cases h : c [a, b] with
    | none => rw [h] at this; cases this
    | some y => rw [h] at this; simpa [List.ofFn_succ] using this
  obtain ⟨r, hr, htree⟩ := Arith.Has.tree (ι := Fin n) hf (depth n)
    (fun i x => if h : i < n then x ⟨i, h⟩ else x ⟨n - 1, by omega⟩) fun i => by
      by_cases h : i < n
      · simp only [h, dif_pos]; exact Arith.Aff.coord _
      · simp only [h, dif_neg, not_false_eq_true]; exact Arith.Aff.coord _
  refine hr.represents fun x => ?_
  have hne : List.ofFn x ≠ [] := by
    intro h
    have := congrArg List.length h
    simp at this
    omega
  rw [C34_root dbg c _ hne (by simpa using hlen), List.length_ofFn]
  have hpad : padded (List.ofFn x) hne = fun i => if h : i < n then x ⟨i, h⟩ else x ⟨n - 1, by omega⟩ := by
    funext i
    unfold padded
    by_cases h : i < n
    · rw [dif_pos h, List.getD_eq_getElem _ _ (by simpa using h), List.getElem_ofFn]
    · rw [dif_neg h, List.getD_eq_default _ _ (by simpa using h), List.getLast_ofFn]
  have hcc : (fun a b => c [a, b]) = fun a b => some (f ![a, b] 0) := by
    funext a b; exact hc a b
  rw [hpad, hcc, htree]
  simp

/-- The number of constraints of every shipped Poseidon2 instance (with its width), and of Poseidon, the same. -/
example : (Instances.poseidon2.map fun S => (S.t, mulCost S.d * (S.t * S.rounds_f + S.rounds_p))) =
    [(8, 344), (12, 472), (16, 600), (20, 728), (16, 564), (24, 852), (2, 216), (3, 240), (4, 264), (8, 363), (3, 240),
      (3, 240), (4, 264), (8, 363), (3, 240)] ∧
    (Instances.poseidon.map fun S => (S.t, mulCost S.d * (S.t * S.rounds_f + S.rounds_p))) =
    [(8, 344), (12, 472), (16, 600), (20, 728), (16, 564), (24, 852), (2, 216), (3, 240), (4, 264), (8, 363), (3, 240),
      (3, 240), (4, 264), (8, 363), (3, 240)] := by
  decide +kernel

/-- The hypotheses are met by every shipped Poseidon2 instance; with width 3, so are those of the tree statement. -/
example (S : Poseidon2Source) (hS : S ∈ Instances.poseidon2) :
    ∃ P, S.params dbg = some P ∧
      (∃ C : R1CS (ZMod S.modulus) (Fin S.t) (Fin S.t) (mulCost S.d * (S.t * S.rounds_f + S.rounds_p)),
        C.Represents (Poseidon2.permutation dbg P)) ∧
      (S.t = 3 → ∃ D : R1CS (ZMod S.modulus) (Fin 1000) (Fin 1) (mulCost S.d * (3 * S.rounds_f + S.rounds_p) * 1023),
        D.Represents fun set => (accumulate dbg (Poseidon2.compress dbg P) set).map fun y => [y]) := by
  have hg := poseidon2_good S hS
  obtain ⟨P, hP⟩ := hg.params
  refine ⟨P, hP, C74_poseidon2 hP hg.shaped, fun h3 => ?_⟩
  have hs := hg.shaped
  unfold Poseidon2Source.params at hP
  rw [h3] at hP hs
  obtain ⟨C, hC⟩ := C74_compress_poseidon2 hP hs
  have h := C74_merkle dbg hC (n := 1000) (by omega) (by norm_num)
  have e : depth 1000 = 10 := by
    obtain ⟨h1, h2, h3⟩ := C34_depth 1000
    have h4 := h3 10 (by omega) (by norm_num)
    by_contra hne
    have h5 : 2 ^ depth 1000 ≤ 2 ^ 9 := Nat.pow_le_pow_right (by omega) (by omega)
    omega
  rw [e] at h
  exact h

/-- A system on its own: `x ^ 5` in three constraints, with its auxiliary variables for the input 2. -/
example : (⟨![⟨0, ![1], ![0, 0, 0]⟩, ⟨0, ![0], ![1, 0, 0]⟩, ⟨0, ![0], ![0, 1, 0]⟩],
      ![⟨0, ![1], ![0, 0, 0]⟩, ⟨0, ![0], ![1, 0, 0]⟩, ⟨0, ![1], ![0, 0, 0]⟩],
      ![⟨0, ![0], ![0, 0, 1]⟩]⟩ : R1CS ℤ (Fin 1) (Fin 1) 3).Holds ![2] ![4, 16, 32] ![32] := by
  refine ⟨fun k => ?_, fun i => ?_⟩
  · fin_cases k <;> simp [Form.eval, Fin.sum_univ_succ]
  · fin_cases i; simp [Form.eval, Fin.sum_univ_succ]

end ZkHash
