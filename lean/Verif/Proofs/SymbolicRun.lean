import Verif.Proofs.Symbolic
import Verif.Proofs.Degree

set_option autoImplicit false

/-!
# Running a permutation on formal polynomials, and evaluating the result
-/

namespace ZkHash.Symbolic

open Spec Matrix

variable {dbg : Bool} {F R : Type}

section back
variable [CommRing F] [CommRing R] (φ : F →+* R) (ψ : R →+* F) (h : ∀ c, ψ (φ c) = c)
include h

theorem map_back {n m : Nat} (M : Matrix (Fin n) (Fin m) F) : (M.map φ).map ψ = M := by
  ext i j
  exact h _

theorem poseidon2_back {t d : Nat} (ME MI : Matrix (Fin t) (Fin t) F) (rf rp : Nat) (c : Nat → Nat → F) (z : Fin t → R) :
    (fun i => ψ (Spec.poseidon2 (ME.map φ) (MI.map φ) d rf rp (fun r i => φ (c r i)) z i)) =
      Spec.poseidon2 ME MI d rf rp c fun i => ψ (z i) := by
  rw [← poseidon2_map ψ, map_back φ ψ h, map_back φ ψ h]
  simp only [h]

theorem poseidon_back {t d : Nat} (M : Matrix (Fin t) (Fin t) F) (rf rp : Nat) (c : Nat → Nat → F) (z : Fin t → R) :
    (fun i => ψ (Spec.poseidon (M.map φ) d rf rp (fun r i => φ (c r i)) z i)) =
      Spec.poseidon M d rf rp c fun i => ψ (z i) := by
  rw [← poseidon_map ψ, map_back φ ψ h]
  simp only [h]

theorem gmimc_back {s d : Nat} (c : Nat → F) (n : Nat) (z : Fin (s + 1) → R) :
    (fun i => ψ (Spec.gmimc d (fun r => φ (c r)) n z i)) = Spec.gmimc d c n fun i => ψ (z i) := by
  rw [← gmimc_map ψ]
  simp only [h]

theorem neptune_back {k d : Nat} (ME MI : Matrix (Fin (2 * k)) (Fin (2 * k)) F) (γ : F) (rf rp : Nat) (c : Nat → Nat → F)
    (z : Fin (2 * k) → R) :
    (fun i => ψ (Spec.neptune (ME.map φ) (MI.map φ) d (φ γ) rf rp (fun r i => φ (c r i)) z i)) =
      Spec.neptune ME MI d γ rf rp c fun i => ψ (z i) := by
  rw [← neptune_map ψ, map_back φ ψ h, map_back φ ψ h]
  simp only [h]

end back

/-- From the two runs to `LineRun`. -/
theorem lineRun [CommRing F] {t : Nat} {run : List F → Option (List F)}
    {sym : List (Polynomial F) → Option (List (Polynomial F))} (x : Fin t → F) (j : Fin t)
    (S : (Fin t → Polynomial F) → Fin t → Polynomial F) (S0 : (Fin t → F) → Fin t → F)
    (hsym : ∀ z, sym (List.ofFn z) = some (List.ofFn (S z)))
    (hrun : ∀ z, run (List.ofFn z) = some (List.ofFn (S0 z)))
    (hS : ∀ (ψ : Polynomial F →+* F), (∀ c, ψ (Polynomial.C c) = c) → ∀ z, (fun i => ψ (S z i)) = S0 fun i => ψ (z i)) :
    LineRun run sym x j (List.ofFn (S (Degree.line x j))) := by
  refine ⟨hsym _, List.length_ofFn, fun a => ?_⟩
  rw [hrun, List.map_ofFn]
  have := hS (Polynomial.evalRingHom a) (fun c => Polynomial.eval_C) (Degree.line x j)
  congr 2
  rw [show (Polynomial.eval a ∘ S (Degree.line x j)) = fun i => Polynomial.evalRingHom a (S (Degree.line x j) i) from rfl, this]
  congr 1
  funext i
  unfold Degree.line
  by_cases hi : i = j
  · subst hi; simp
  · simp [hi]

/-- From the two runs to `FullRun`. -/
theorem fullRun [CommRing F] {t : Nat} {run : List F → Option (List F)}
    {sym : List (MvPolynomial (Fin t) F) → Option (List (MvPolynomial (Fin t) F))}
    (S : (Fin t → MvPolynomial (Fin t) F) → Fin t → MvPolynomial (Fin t) F) (S0 : (Fin t → F) → Fin t → F)
    (hsym : ∀ z, sym (List.ofFn z) = some (List.ofFn (S z)))
    (hrun : ∀ z, run (List.ofFn z) = some (List.ofFn (S0 z)))
    (hS : ∀ (ψ : MvPolynomial (Fin t) F →+* F), (∀ c, ψ (MvPolynomial.C c) = c) → ∀ z,
      (fun i => ψ (S z i)) = S0 fun i => ψ (z i)) :
    FullRun run sym (List.ofFn (S MvPolynomial.X)) := by
  refine ⟨hsym _, List.length_ofFn, fun x => ?_⟩
  rw [hrun, List.map_ofFn]
  have := hS (MvPolynomial.eval x) (fun c => MvPolynomial.eval_C c) MvPolynomial.X
  congr 2
  rw [show (MvPolynomial.eval x ∘ S MvPolynomial.X) = fun i => MvPolynomial.eval x (S MvPolynomial.X i) from rfl, this]
  congr 1
  funext i
  simp

end ZkHash.Symbolic
