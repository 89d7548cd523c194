import Verif.Spec.R1CS
import Verif.Spec.Poseidon
import Verif.Spec.Poseidon2
import Verif.Spec.Gmimc
import Verif.Spec.Neptune
import Verif.Spec.Merkle
import Mathlib.Tactic.Ring
import Mathlib.Tactic.LinearCombination

set_option autoImplicit false

/-!
# Building constraint systems
-/

namespace ZkHash

open Spec Matrix

namespace Arith

set_option linter.unusedSectionVars false

variable {F : Type} [CommRing F]

/-- `f` has a system with `m` constraints. -/
def Has {ι κ : Type} [Fintype ι] (m : Nat) (f : (ι → F) → κ → F) : Prop :=
  ∃ C : R1CS F ι κ m, ∀ x, ∃ w,
    (∀ w', (∀ k, w' k = (C.left k).eval x w' * (C.right k).eval x w') ↔ w' = w) ∧ ∀ i, f x i = (C.out i).eval x w

/-- An affine function. -/
def Aff {ι : Type} [Fintype ι] (g : (ι → F) → F) : Prop := ∃ (c : F) (a : ι → F), ∀ x, g x = c + ∑ j, a j * x j

section aff
variable {ι : Type} [Fintype ι]

theorem Aff.const (c : F) : Aff (fun _ : ι → F => c) := ⟨c, 0, fun x => by simp⟩

theorem Aff.coord [DecidableEq ι] (i : ι) : Aff (fun x : ι → F => x i) :=
  ⟨0, Pi.single i 1, fun x => by simp [Pi.single_apply]⟩

theorem Aff.add {g h : (ι → F) → F} (hg : Aff g) (hh : Aff h) : Aff (fun x => g x + h x) := by
  obtain ⟨c, a, hg⟩ := hg
  obtain ⟨c', a', hh⟩ := hh
  refine ⟨c + c', a + a', fun x => ?_⟩
  beta_reduce
  rw [hg, hh]
  simp only [Pi.add_apply, add_mul, Finset.sum_add_distrib]
  ring

theorem Aff.mul (k : F) {g : (ι → F) → F} (hg : Aff g) : Aff (fun x => k * g x) := by
  obtain ⟨c, a, hg⟩ := hg
  refine ⟨k * c, fun j => k * a j, fun x => ?_⟩
  beta_reduce
  rw [hg, mul_add, Finset.mul_sum]
  simp only [mul_assoc]

theorem Aff.sub {g h : (ι → F) → F} (hg : Aff g) (hh : Aff h) : Aff (fun x => g x - h x) := by
  have := hg.add (hh.mul (-1))
  refine cast ?_ this
  congr 1; funext x; ring

theorem Aff.sum {κ : Type} (s : Finset κ) {g : κ → (ι → F) → F} (hg : ∀ k, Aff (g k)) :
    Aff (fun x => ∑ k ∈ s, g k x) := by
  classical
  induction s using Finset.induction_on with
  | empty => simpa using Aff.const 0
  | insert k s hk ih =>
    have := (hg k).add ih
    refine cast ?_ this
    congr 1; funext x; rw [Finset.sum_insert hk]

theorem Aff.ite {P : Prop} [Decidable P] {g h : (ι → F) → F} (hg : Aff g) (hh : Aff h) :
    Aff (fun x => if P then g x else h x) := by
  split <;> assumption

theorem Aff.mulVec {n m : Nat} (M : Matrix (Fin n) (Fin m) F) {g : (ι → F) → Fin m → F} (hg : ∀ i, Aff (fun x => g x i))
    (i : Fin n) : Aff (fun x => (M *ᵥ g x) i) := by
  unfold Matrix.mulVec dotProduct
  exact Aff.sum _ fun j => (hg j).mul _

end aff

section comp
variable {ι κ μ : Type} [Fintype ι] [Fintype κ]

/-- Forget about the later variables. -/
def lift {m : Nat} (n : Nat) (e : Form F ι m) : Form F ι (m + n) := ⟨e.const, e.input, Fin.append e.aux 0⟩

/-- Plug in affine expressions for the inputs. -/
def plug {m n : Nat} (out : κ → Form F ι m) (e : Form F κ n) : Form F ι (m + n) :=
  ⟨e.const + ∑ k, e.input k * (out k).const, fun i => ∑ k, e.input k * (out k).input i,
    Fin.append (fun j => ∑ k, e.input k * (out k).aux j) e.aux⟩

theorem lift_eval {m : Nat} (n : Nat) (e : Form F ι m) (x : ι → F) (w : Fin m → F) (v : Fin n → F) :
    (lift n e).eval x (Fin.append w v) = e.eval x w := by
  simp [lift, Form.eval, Fin.sum_univ_add]

theorem plug_eval {m n : Nat} (out : κ → Form F ι m) (e : Form F κ n) (x : ι → F) (w : Fin m → F) (v : Fin n → F) :
    (plug out e).eval x (Fin.append w v) = e.eval (fun k => (out k).eval x w) v := by
  simp only [plug, Form.eval, Fin.sum_univ_add, Fin.append_left, Fin.append_right, mul_add, Finset.sum_add_distrib]
  have h1 : ∑ i, (∑ k, e.input k * (out k).input i) * x i = ∑ k, e.input k * ∑ i, (out k).input i * x i := by
    simp only [Finset.sum_mul, Finset.mul_sum, mul_assoc]
    exact Finset.sum_comm
  have h2 : ∑ i, (∑ k, e.input k * (out k).aux i) * w i = ∑ k, e.input k * ∑ i, (out k).aux i * w i := by
    simp only [Finset.sum_mul, Finset.mul_sum, mul_assoc]
    exact Finset.sum_comm
  rw [h1, h2]
  ring

theorem Has.comp {m n : Nat} {f : (ι → F) → κ → F} {g : (κ → F) → μ → F} (hf : Has m f) (hg : Has n g) :
    Has (m + n) (fun x => g (f x)) := by
  obtain ⟨C, hC⟩ := hf
  obtain ⟨D, hD⟩ := hg
  refine ⟨⟨Fin.append (fun k => lift n (C.left k)) (fun k => plug C.out (D.left k)),
    Fin.append (fun k => lift n (C.right k)) (fun k => plug C.out (D.right k)), fun i => plug C.out (D.out i)⟩, fun x => ?_⟩
  obtain ⟨w, hw, hout⟩ := hC x
  obtain ⟨v, hv, hout'⟩ := hD (f x)
  have hfx : (fun k => (C.out k).eval x w) = f x := funext fun i => (hout i).symm
  refine ⟨Fin.append w v, fun w' => ?_, fun i => ?_⟩
  · obtain ⟨a, b, rfl⟩ : ∃ a b, w' = Fin.append a b :=
      ⟨fun i => w' (Fin.castAdd n i), fun i => w' (Fin.natAdd m i), Fin.append_castAdd_natAdd.symm⟩
    have hsplit : (∀ P : Fin (m + n) → Prop, (∀ k, P k) ↔ (∀ i, P (Fin.castAdd n i)) ∧ ∀ i, P (Fin.natAdd m i)) :=
      fun P => ⟨fun h => ⟨fun i => h _, fun i => h _⟩, fun h => Fin.addCases h.1 h.2⟩
    rw [hsplit]
    simp only [Fin.append_left, Fin.append_right, lift_eval, plug_eval]
    have hab : Fin.append a b = Fin.append w v ↔ a = w ∧ b = v := by
      constructor
      · intro h
        constructor
        · funext i; have := congrFun h (Fin.castAdd n i); simpa using this
        · funext i; have := congrFun h (Fin.natAdd m i); simpa using this
      · rintro ⟨rfl, rfl⟩; rfl
    rw [hab, hw a]
    constructor
    · rintro ⟨rfl, h⟩
      rw [hfx, hv] at h
      exact ⟨rfl, h⟩
    · rintro ⟨rfl, rfl⟩
      refine ⟨rfl, ?_⟩
      rw [hfx, hv]
  · simp only [plug_eval, hfx]
    exact hout' i

end comp

section base
variable {ι κ : Type} [Fintype ι] [Fintype κ]

theorem Has.cast {m n : Nat} {f : (ι → F) → κ → F} (h : Has m f) (e : m = n) : Has n f := e ▸ h

theorem Has.congr {m : Nat} {f g : (ι → F) → κ → F} (h : Has m f) (e : ∀ x i, f x i = g x i) : Has m g := by
  have : f = g := funext fun x => funext fun i => e x i
  exact this ▸ h

theorem Has.affine {g : (ι → F) → κ → F} (hg : ∀ i, Aff (fun x => g x i)) : Has 0 g := by
  choose c a h using hg
  beta_reduce at h
  refine ⟨⟨Fin.elim0, Fin.elim0, fun i => ⟨c i, a i, Fin.elim0⟩⟩, fun x => ⟨Fin.elim0, fun w' => ?_, fun i => ?_⟩⟩
  · exact ⟨fun _ => Subsingleton.elim _ _, fun _ k => k.elim0⟩
  · rw [h]; simp [Form.eval]

theorem Has.then {μ : Type} {m : Nat} {f : (ι → F) → κ → F} (hf : Has m f) {g : (κ → F) → μ → F}
    (hg : ∀ i, Aff (fun x => g x i)) : Has m (fun x => g (f x)) := by
  choose c a h using hg
  beta_reduce at h
  have : Has 0 g := by
    refine ⟨⟨Fin.elim0, Fin.elim0, fun i => ⟨c i, a i, Fin.elim0⟩⟩, fun x => ⟨Fin.elim0, fun w' => ?_, fun i => ?_⟩⟩
    · exact ⟨fun _ => Subsingleton.elim _ _, fun _ k => k.elim0⟩
    · rw [h]; simp [Form.eval]
  exact hf.comp this

theorem Has.after {μ : Type} [Fintype μ] {m : Nat} {f : (κ → F) → μ → F} (hf : Has m f) {g : (ι → F) → κ → F}
    (hg : ∀ i, Aff (fun x => g x i)) : Has m (fun x => f (g x)) :=
  ((Has.affine hg).comp hf).cast (by omega)

/-- One more word: the product of two affine functions. -/
theorem Has.gate {g h : (ι → F) → F} (hg : Aff g) (hh : Aff h) :
    Has 1 (fun (x : ι → F) (o : Option ι) => o.elim (g x * h x) x) := by
  classical
  obtain ⟨c, a, hg⟩ := hg
  obtain ⟨c', a', hh⟩ := hh
  refine ⟨⟨fun _ => ⟨c, a, 0⟩, fun _ => ⟨c', a', 0⟩, fun o => o.elim ⟨0, 0, 1⟩ fun i => ⟨0, Pi.single i 1, 0⟩⟩, fun x =>
    ⟨fun _ => g x * h x, fun w' => ?_, fun o => ?_⟩⟩
  · simp only [Form.eval, Pi.zero_apply, zero_mul, Finset.sum_const_zero, add_zero, hg, hh]
    exact ⟨fun H => funext fun k => H k, fun H k => congrFun H k⟩
  · cases o with
    | none => simp [Form.eval]
    | some i => simp [Form.eval, Pi.single_apply]

/-- One more word: a power of an affine function. -/
theorem Has.power {d : Nat} (hd : d = 2 ∨ d = 3 ∨ d = 5 ∨ d = 7) {g : (ι → F) → F} (hg : Aff g) :
    Has (mulCost d) (fun (x : ι → F) (o : Option ι) => o.elim (g x ^ d) x) := by
  classical
  have lift : ∀ {κ : Type} [Fintype κ] {g : (κ → F) → F}, Aff g → Aff (fun x : Option κ → F => g fun i => x (some i)) := by
    rintro κ _ g ⟨c, a, h⟩
    refine ⟨c, fun o => o.elim 0 a, fun x => ?_⟩
    beta_reduce
    rw [h, Fintype.sum_option]; simp
  rcases hd with rfl | rfl | rfl | rfl
  · exact (Has.gate hg hg).congr fun x o => by cases o <;> simp [pow_two]
  · have h1 := Has.gate hg hg
    have h2 := h1.comp (Has.gate (Aff.coord (none : Option ι)) (lift hg))
    refine (h2.then (g := fun y (o : Option ι) => o.elim (y none) fun i => y (some (some i))) ?_).congr ?_
    · intro o; cases o with
      | none => exact Aff.coord none
      | some i => exact Aff.coord (some (some i))
    · intro x o; cases o with
      | none => simp; ring
      | some i => rfl
  · have h1 := Has.gate hg hg
    have h2 := h1.comp (Has.gate (Aff.coord (none : Option ι)) (Aff.coord none))
    have h3 := h2.comp (Has.gate (Aff.coord (none : Option (Option ι))) (lift (lift hg)))
    refine (h3.then (g := fun y (o : Option ι) => o.elim (y none) fun i => y (some (some (some i)))) ?_).congr ?_
    · intro o; cases o with
      | none => exact Aff.coord none
      | some i => exact Aff.coord (some (some (some i)))
    · intro x o; cases o with
      | none => simp; ring
      | some i => rfl
  · have h1 := Has.gate hg hg
    have h2 := h1.comp (Has.gate (Aff.coord (none : Option ι)) (Aff.coord none))
    have h3 := h2.comp (Has.gate (Aff.coord (none : Option (Option ι))) (Aff.coord (some none)))
    have h4 := h3.comp (Has.gate (Aff.coord (none : Option (Option (Option ι)))) (lift (lift (lift hg))))
    refine (h4.then (g := fun y (o : Option ι) => o.elim (y none) fun i => y (some (some (some (some i))))) ?_).congr ?_
    · intro o; cases o with
      | none => exact Aff.coord none
      | some i => exact Aff.coord (some (some (some (some i))))
    · intro x o; cases o with
      | none => simp; ring
      | some i => rfl

theorem Has.id : Has 0 (fun x : ι → F => x) := by
  classical
  exact Has.affine fun i => Aff.coord i

theorem Has.rounds {m : Nat} {f : Nat → (ι → F) → ι → F} (hf : ∀ r, Has m (f r)) (a : Nat) :
    ∀ n, Has (n * m) (fun x => Spec.rounds f a n x) := by
  intro n
  induction n with
  | zero => exact Has.id.cast (by omega)
  | succ n ih => exact (ih.comp (hf (a + n))).cast (by rw [Nat.succ_mul])

end base

section primitives
variable {t : Nat}

/-- The S-box on the first `k` words. -/
theorem Has.sboxes {d : Nat} (hd : d = 2 ∨ d = 3 ∨ d = 5 ∨ d = 7) (c : Fin t → F) :
    ∀ k, k ≤ t → Has (k * mulCost d) (fun (x : Fin t → F) i => if i.val < k then (x i + c i) ^ d else x i) := by
  intro k
  induction k with
  | zero => intro _; exact (Has.id.congr fun x i => by simp).cast (by omega)
  | succ k ih =>
    intro hk
    have h := (ih (by omega)).comp (Has.power hd ((Aff.coord (⟨k, hk⟩ : Fin t)).add (Aff.const (c ⟨k, hk⟩))))
    refine ((h.then (g := fun y (i : Fin t) => if i.val = k then y none else y (some i)) ?_).congr ?_).cast
      (by rw [Nat.succ_mul])
    · intro i
      exact Aff.ite (Aff.coord _) (Aff.coord _)
    · intro x i
      simp only [Option.elim_none, Option.elim_some, lt_irrefl, if_false]
      by_cases h1 : i.val = k
      · obtain rfl : i = ⟨k, hk⟩ := Fin.ext h1
        simp
      · by_cases h2 : i.val < k
        · rw [if_neg h1, if_pos h2, if_pos (by omega)]
        · rw [if_neg h1, if_neg h2, if_neg (by omega)]

theorem Has.fullRound {d : Nat} (hd : d = 2 ∨ d = 3 ∨ d = 5 ∨ d = 7) (M : Matrix (Fin t) (Fin t) F) (c : Fin t → F) :
    Has (t * mulCost d) (Spec.fullRound M d c) := by
  refine (((Has.sboxes hd c) t le_rfl).then (g := fun y i => (M *ᵥ y) i) (Aff.mulVec M Aff.coord)).congr fun x i => ?_
  simp [Spec.fullRound]

theorem Has.first {d : Nat} (hd : d = 2 ∨ d = 3 ∨ d = 5 ∨ d = 7) {g : (Fin t → F) → F} (hg : Aff g) :
    Has (mulCost d) (fun (x : Fin t → F) i => if i.val = 0 then g x ^ d else x i) := by
  refine ((Has.power hd hg).then (g := fun y (i : Fin t) => if i.val = 0 then y none else y (some i)) ?_).congr ?_
  · intro i
    exact Aff.ite (Aff.coord _) (Aff.coord _)
  · intro x i
    simp

theorem Has.partialRound {d : Nat} (hd : d = 2 ∨ d = 3 ∨ d = 5 ∨ d = 7) (ht : 0 < t) (M : Matrix (Fin t) (Fin t) F)
    (c0 : F) : Has (mulCost d) (Spec.partialRound M d c0) := by
  refine ((Has.first hd ((Aff.coord (⟨0, ht⟩ : Fin t)).add (Aff.const c0))).then (g := fun y i => (M *ᵥ y) i)
    (Aff.mulVec M Aff.coord)).congr fun x i => ?_
  unfold Spec.partialRound
  congr 2
  funext j
  split
  · next h => rw [show j = ⟨0, ht⟩ from Fin.ext h]
  · rfl

theorem Has.poseidonPartial {d : Nat} (hd : d = 2 ∨ d = 3 ∨ d = 5 ∨ d = 7) (ht : 0 < t) (M : Matrix (Fin t) (Fin t) F)
    (c : Fin t → F) : Has (mulCost d) (Spec.poseidonPartial M d c) := by
  refine (((Has.first hd ((Aff.coord (⟨0, ht⟩ : Fin t)).add (Aff.const (c ⟨0, ht⟩)))).then
    (g := fun y (i : Fin t) => if i.val = 0 then y i else y i + c i) ?_).then (g := fun y i => (M *ᵥ y) i)
    (Aff.mulVec M Aff.coord)).congr fun x i => ?_
  · intro i
    exact Aff.ite (Aff.coord _) ((Aff.coord _).add (Aff.const _))
  · unfold Spec.poseidonPartial
    congr 2
    funext j
    split
    · next h => rw [show j = ⟨0, ht⟩ from Fin.ext h]
    · rfl

theorem Has.poseidon2 {d : Nat} (hd : d = 2 ∨ d = 3 ∨ d = 5 ∨ d = 7) (ht : 0 < t) (ME MI : Matrix (Fin t) (Fin t) F)
    (rf rp : Nat) (c : Nat → Nat → F) :
    Has (mulCost d * (t * (2 * rf) + rp)) (Spec.poseidon2 ME MI d rf rp c) := by
  have h0 : Has 0 (fun x : Fin t → F => ME *ᵥ x) := Has.affine (Aff.mulVec ME Aff.coord)
  have h1 := h0.comp (Has.rounds (fun r => Has.fullRound hd ME fun i : Fin t => c r i) 0 rf)
  have h2 := h1.comp (Has.rounds (fun r => Has.partialRound hd ht MI (c r 0)) rf rp)
  have h3 := h2.comp (Has.rounds (fun r => Has.fullRound hd ME fun i : Fin t => c r i) (rf + rp) rf)
  exact h3.cast (by ring)

theorem Has.poseidon {d : Nat} (hd : d = 2 ∨ d = 3 ∨ d = 5 ∨ d = 7) (ht : 0 < t) (M : Matrix (Fin t) (Fin t) F)
    (rf rp : Nat) (c : Nat → Nat → F) :
    Has (mulCost d * (t * (2 * rf) + rp)) (Spec.poseidon M d rf rp c) := by
  have hfull : ∀ r, Has (t * mulCost d) (Spec.poseidonFull M d fun i : Fin t => c r i) := fun r => Has.fullRound hd M _
  have h1 := Has.rounds hfull 0 rf
  have h2 := h1.comp (Has.rounds (fun r => Has.poseidonPartial hd ht M fun i : Fin t => c r i) rf rp)
  have h3 := h2.comp (Has.rounds hfull (rf + rp) rf)
  exact h3.cast (by ring)

theorem Has.feistel {s d : Nat} (hd : d = 2 ∨ d = 3 ∨ d = 5 ∨ d = 7) (c : F) :
    Has (mulCost d) (Spec.feistel (s := s) d c) := by
  refine ((Has.power hd ((Aff.coord (0 : Fin (s + 1))).add (Aff.const c))).then
    (g := fun y (i : Fin (s + 1)) => if i = 0 then y (some 0) else y (some i) + y none) ?_).congr ?_
  · intro i
    exact Aff.ite (Aff.coord _) ((Aff.coord _).add (Aff.coord _))
  · intro x i
    simp [Spec.feistel]

theorem Has.gmimc {s d : Nat} (hd : d = 2 ∨ d = 3 ∨ d = 5 ∨ d = 7) (c : Nat → F) (n : Nat) :
    Has (mulCost d * (n + 1)) (Spec.gmimc (s := s) d c n) := by
  have h : ∀ r, Has (mulCost d) (fun y : Fin (s + 1) → F => rotate (Spec.feistel d (c r) y)) := fun r =>
    (Has.feistel hd (c r)).then (g := rotate) fun i => Aff.coord _
  exact ((Has.rounds h 0 n).comp (Has.feistel hd (c n))).cast (by ring)

theorem Has.pairs {k : Nat} (γ : F) :
    ∀ j, j ≤ k → Has (2 * j) (fun (x : Fin (2 * k) → F) i =>
      if i.val / 2 < j then onPairs (neptunePair γ) x i else x i) := by
  intro j
  induction j with
  | zero => intro _; exact Has.id.congr fun x i => by simp
  | succ j ih =>
    intro hj
    have h0 : 2 * j < 2 * k := by omega
    have h1 : 2 * j + 1 < 2 * k := by omega
    have hz := (Aff.coord (F := F) (⟨2 * j, h0⟩ : Fin (2 * k))).sub (Aff.coord ⟨2 * j + 1, h1⟩)
    have g1 := (ih (by omega)).comp (Has.gate hz hz)
    have hu := ((((Aff.coord (F := F) (some (⟨2 * j, h0⟩ : Fin (2 * k)))).sub
      ((Aff.coord (some ⟨2 * j + 1, h1⟩)).mul 2)).sub (Aff.coord none)).add (Aff.const γ))
    have g2 := g1.comp (Has.gate hu hu)
    refine (g2.then (g := fun y (i : Fin (2 * k)) =>
      if i.val = 2 * j then 2 * y (some (some ⟨2 * j, h0⟩)) + y (some (some ⟨2 * j + 1, h1⟩)) + 3 * y (some none) + y none
      else if i.val = 2 * j + 1 then
        y (some (some ⟨2 * j, h0⟩)) + 3 * y (some (some ⟨2 * j + 1, h1⟩)) + 4 * y (some none) + y none
      else y (some (some i))) ?_).congr ?_
    · intro i
      refine Aff.ite ?_ (Aff.ite ?_ (Aff.coord _))
      · exact ((((Aff.coord _).mul 2).add (Aff.coord _)).add ((Aff.coord _).mul 3)).add (Aff.coord _)
      · exact (((Aff.coord _).add ((Aff.coord _).mul 3)).add ((Aff.coord _).mul 4)).add (Aff.coord _)
    · intro x i
      have e0 : ¬ (2 * j) / 2 < j := by omega
      have e1 : ¬ (2 * j + 1) / 2 < j := by omega
      simp only [Option.elim_none, Option.elim_some, e0, e1, if_false]
      by_cases c0 : i.val = 2 * j
      · have hi : i = ⟨2 * j, h0⟩ := Fin.ext c0
        subst hi
        have e2 : (2 * j) / 2 = j := by omega
        simp only [if_true, e2, Nat.lt_succ_self, onPairs, neptunePair, Nat.mul_mod_right]
        ring
      · by_cases c1 : i.val = 2 * j + 1
        · have hi : i = ⟨2 * j + 1, h1⟩ := Fin.ext c1
          subst hi
          have e2 : (2 * j + 1) / 2 = j := by omega
          have e3 : ¬ (2 * j + 1) % 2 = 0 := by omega
          simp only [c0, if_false, if_true, e2, Nat.lt_succ_self, onPairs, neptunePair, e3]
          ring
        · rw [if_neg c0, if_neg c1]
          by_cases c2 : i.val / 2 < j
          · rw [if_pos c2, if_pos (by omega)]
          · rw [if_neg c2, if_neg (by omega)]

theorem Has.neptune {k d : Nat} (hd : d = 2 ∨ d = 3 ∨ d = 5 ∨ d = 7) (hk : 0 < k)
    (ME MI : Matrix (Fin (2 * k)) (Fin (2 * k)) F) (γ : F) (rf rp : Nat) (c : Nat → Nat → F) :
    Has (2 * k * (2 * rf) + mulCost d * rp) (Spec.neptune ME MI d γ rf rp c) := by
  have hext : ∀ r, Has (2 * k) (neptuneExtRound ME γ fun i : Fin (2 * k) => c r i) := by
    intro r
    refine ((Has.pairs γ k le_rfl).then (g := fun y i => (ME *ᵥ y) i + c r i)
      (fun i => (Aff.mulVec ME Aff.coord i).add (Aff.const _))).congr fun x i => ?_
    unfold neptuneExtRound
    rw [Pi.add_apply]
    congr 2
    funext j
    rw [if_pos (by omega)]
  have hint : ∀ r, Has (mulCost d) (neptuneIntRound MI d fun i : Fin (2 * k) => c r i) := by
    intro r
    have ht : 0 < 2 * k := by omega
    refine ((Has.first hd (Aff.coord (⟨0, ht⟩ : Fin (2 * k)))).then (g := fun y i => (MI *ᵥ y) i + c r i)
      (fun i => (Aff.mulVec MI Aff.coord i).add (Aff.const _))).congr fun x i => ?_
    unfold neptuneIntRound
    rw [Pi.add_apply]
    congr 2
    funext j
    split
    · next h => rw [show j = ⟨0, ht⟩ from Fin.ext h]
    · rfl
  have h0 : Has 0 (fun x : Fin (2 * k) → F => ME *ᵥ x) := Has.affine (Aff.mulVec ME Aff.coord)
  have h1 := h0.comp (Has.rounds hext 0 rf)
  have h2 := h1.comp (Has.rounds hint rf rp)
  have h3 := h2.comp (Has.rounds hext (rf + rp) rf)
  exact h3.cast (by ring)

end primitives

section merkle
variable {ι κ : Type} [Fintype ι] [Fintype κ]

/-- Pass the inputs on. -/
theorem Has.keep {m : Nat} {f : (ι → F) → κ → F} (h : Has m f) :
    Has m (fun x (o : κ ⊕ ι) => Sum.elim (f x) x o) := by
  classical
  obtain ⟨C, hC⟩ := h
  refine ⟨⟨C.left, C.right, Sum.elim C.out fun i => ⟨0, Pi.single i 1, 0⟩⟩, fun x => ?_⟩
  obtain ⟨w, hw, hout⟩ := hC x
  refine ⟨w, hw, fun o => ?_⟩
  cases o with
  | inl k => exact hout k
  | inr i => simp [Form.eval, Pi.single_apply]

/-- A perfect tree over affine leaves. -/
theorem Has.tree {m : Nat} {h : (Fin 2 → F) → Fin 1 → F} (hh : Has m h) :
    ∀ (k : Nat) (g : Nat → (ι → F) → F), (∀ i, Aff (g i)) → ∃ r : (ι → F) → Fin 1 → F,
      Has (m * (2 ^ k - 1)) r ∧
      ∀ x, Spec.tree (fun a b => some (h ![a, b] 0)) k (fun i => g i x) = some (r x 0) := by
  intro k
  induction k with
  | zero =>
    intro g hg
    exact ⟨fun x _ => g 0 x, (Has.affine fun _ => hg 0).cast (by simp), fun x => rfl⟩
  | succ k ih =>
    intro g hg
    obtain ⟨r1, h1, e1⟩ := ih g hg
    obtain ⟨r2, h2, e2⟩ := ih (fun i => g (2 ^ k + i)) fun i => hg _
    refine ⟨fun x => h ![r1 x 0, r2 x 0], ?_, fun x => ?_⟩
    · have hp := pow_pos (show 0 < 2 by omega) k
      have a1 := h1.keep
      classical
      have a2 := (h2.after (g := fun (y : Fin 1 ⊕ ι → F) i => y (Sum.inr i)) fun i => Aff.coord _).keep
      have a3 := (a1.comp a2).comp (hh.after (g := fun (y : Fin 1 ⊕ (Fin 1 ⊕ ι) → F) =>
        ![y (Sum.inr (Sum.inl 0)), y (Sum.inl 0)]) ?_)
      · refine (a3.congr fun x i => ?_).cast ?_
        · rfl
        · obtain ⟨q, hq⟩ : ∃ q, 2 ^ k = q + 1 := ⟨2 ^ k - 1, by omega⟩
          rw [pow_succ, hq, show (q + 1) * 2 - 1 = 2 * q + 1 by omega, Nat.add_sub_cancel]
          ring
      · intro i
        fin_cases i
        · exact Aff.coord (Sum.inr (Sum.inl 0))
        · exact Aff.coord (Sum.inl 0)
    · have e2' : Spec.tree (fun a b => some (h ![a, b] 0)) k (shift (2 ^ k) fun i => g i x) = some (r2 x 0) := e2 x
      rw [Spec.tree, e1 x, e2']

/-- From the specification to the internal notion. -/
theorem Has.of_represents {t u m : Nat} {C : R1CS F (Fin t) (Fin u) m} {p : List F → Option (List F)}
    (hC : C.Represents p) : ∃ f : (Fin t → F) → Fin u → F, Has m f ∧ ∀ x, p (List.ofFn x) = some (List.ofFn (f x)) := by
  choose w hw huniq using hC.complete
  refine ⟨fun x i => (C.out i).eval x (w x), ⟨C, fun x => ⟨w x, fun w' => ?_, fun i => rfl⟩⟩, fun x => ?_⟩
  · obtain ⟨y, hy⟩ := hw x
    constructor
    · intro h
      exact huniq x w' ⟨_, h, fun i => rfl⟩
    · rintro rfl
      exact hy.1
  · obtain ⟨y, hy⟩ := hw x
    exact hC.sound x (w x) _ ⟨hy.1, fun i => rfl⟩

end merkle

/-- From the internal notion to the specification. -/
theorem Has.represents {t u m : Nat} {f : (Fin t → F) → Fin u → F} (h : Has m f) {p : List F → Option (List F)}
    (hp : ∀ x, p (List.ofFn x) = some (List.ofFn (f x))) : ∃ C : R1CS F (Fin t) (Fin u) m, C.Represents p := by
  obtain ⟨C, hC⟩ := h
  refine ⟨C, ⟨fun x w y hw => ?_, fun x => ?_⟩⟩
  · obtain ⟨w0, hw0, hout⟩ := hC x
    obtain rfl := (hw0 w).mp hw.1
    rw [hp]
    congr 2
    funext i
    rw [hout, hw.2]
  · obtain ⟨w0, hw0, -⟩ := hC x
    exact ⟨w0, ⟨_, (hw0 w0).mpr rfl, fun i => rfl⟩, fun w ⟨y, hy⟩ => (hw0 w).mp hy.1⟩

end Arith

end ZkHash
