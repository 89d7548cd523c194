import Verif.Model.Poseidon2
import Verif.Model.Poseidon
import Verif.Model.Gmimc
import Verif.Model.Neptune
import Mathlib.Algebra.MvPolynomial.Basic
import Mathlib.Algebra.MvPolynomial.Eval
import Mathlib.Algebra.Polynomial.Eval.Defs

set_option autoImplicit false

/-!
# Running a permutation on formal polynomials

The model of a permutation only uses the ring operations of its scalar type, so it can be run on formal polynomials
over the field. For that the scalars of a parameter set are mapped into the polynomial ring; the numbers stay.
-/

namespace ZkHash

variable {F R : Type}

/-- The same parameters with the scalars mapped by `φ`. -/
def Poseidon2Params.map (φ : F → R) (P : Poseidon2Params F) : Poseidon2Params R :=
  { t := P.t, d := P.d, rounds_f_beginning := P.rounds_f_beginning, rounds_p := P.rounds_p, rounds_f_end := P.rounds_f_end,
    rounds := P.rounds, mat_internal_diag_m_1 := P.mat_internal_diag_m_1.map φ,
    mat_internal := P.mat_internal.map (List.map φ), round_constants := P.round_constants.map (List.map φ) }

/-- The same parameters with the scalars mapped by `φ`. -/
def PoseidonParams.map (φ : F → R) (P : PoseidonParams F) : PoseidonParams R :=
  { t := P.t, d := P.d, rounds_f_beginning := P.rounds_f_beginning, rounds_p := P.rounds_p, rounds_f_end := P.rounds_f_end,
    rounds := P.rounds, mds := P.mds.map (List.map φ), round_constants := P.round_constants.map (List.map φ),
    opt_round_constants := P.opt_round_constants.map (List.map φ), w_hat := P.w_hat.map (List.map φ),
    v := P.v.map (List.map φ), m_i := P.m_i.map (List.map φ) }

/-- The same parameters with the scalars mapped by `φ`. -/
def GmimcParams.map (φ : F → R) (P : GmimcParams F) : GmimcParams R :=
  { t := P.t, d := P.d, rounds := P.rounds, round_constants := P.round_constants.map φ }

/-- The same parameters with the scalars mapped by `φ`. -/
def NeptuneParams.map (φ : F → R) (P : NeptuneParams F) : NeptuneParams R :=
  { t := P.t, d := P.d, rounds_f_beginning := P.rounds_f_beginning, rounds_p := P.rounds_p, rounds_f_end := P.rounds_f_end,
    rounds := P.rounds, round_constants := P.round_constants.map (List.map φ), m_e := P.m_e.map (List.map φ),
    mu := P.mu.map φ, abc := (φ P.abc.1, φ P.abc.2.1, φ P.abc.2.2), a_ := (φ P.a_.1, φ P.a_.2.1, φ P.a_.2.2) }

namespace Spec

/-- `run` is a permutation on `t` field elements and `sym` the same permutation on polynomials. All words of the input are
fixed except word `j`, which is the variable `X`. The run on these polynomials returns the `t` polynomials `y`; and for
every field element `a`, the run on the input with `a` in place of the variable returns their values at `a`. -/
def LineRun {F : Type} [CommRing F] {t : Nat} (run : List F → Option (List F))
    (sym : List (Polynomial F) → Option (List (Polynomial F))) (x : Fin t → F) (j : Fin t) (y : List (Polynomial F)) : Prop :=
  sym (List.ofFn (Function.update (fun l => Polynomial.C (x l)) j Polynomial.X)) = some y ∧ y.length = t ∧
    ∀ a, run (List.ofFn (Function.update x j a)) = some (y.map (Polynomial.eval a))

/-- The same with a variable for each word of the input. -/
def FullRun {F : Type} [CommRing F] {t : Nat} (run : List F → Option (List F))
    (sym : List (MvPolynomial (Fin t) F) → Option (List (MvPolynomial (Fin t) F))) (y : List (MvPolynomial (Fin t) F)) : Prop :=
  sym (List.ofFn MvPolynomial.X) = some y ∧ y.length = t ∧
    ∀ x, run (List.ofFn x) = some (y.map (MvPolynomial.eval x))

end Spec

end ZkHash
