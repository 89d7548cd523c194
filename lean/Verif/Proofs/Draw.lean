import Verif.Model.Fields

set_option autoImplicit false

/-!
# Sampling: what a successful draw has produced
-/

namespace ZkHash.Fields

theorem bind_some {F α β : Type} {f : Draw F α} {g : α → Draw F β} {s : List F} {b : β} {r : List F} :
    (f >>= g) s = some (b, r) ↔ ∃ a s', f s = some (a, s') ∧ g a s' = some (b, r) := by
  show (f s).bind (fun p => g p.1 p.2) = _ ↔ _
  rw [Option.bind_eq_some_iff]
  constructor
  · rintro ⟨⟨a, s'⟩, h1, h2⟩; exact ⟨a, s', h1, h2⟩
  · rintro ⟨a, s', h1, h2⟩; exact ⟨(a, s'), h1, h2⟩

theorem bind_eq {F α β : Type} {f : Draw F α} {g : α → Draw F β} {s s' : List F} {a : α} (h : f s = some (a, s')) :
    (f >>= g) s = g a s' := by
  show (f s).bind (fun p => g p.1 p.2) = _
  rw [h]; rfl

theorem pure_some {F α : Type} {a b : α} {s r : List F} :
    (pure a : Draw F α) s = some (b, r) ↔ b = a ∧ r = s := by
  show some (a, s) = some (b, r) ↔ _
  simp [eq_comm]

theorem lift_some {F α : Type} {o : Option α} {b : α} {s r : List F} :
    (StateT.lift o : Draw F α) s = some (b, r) ↔ o = some b ∧ r = s := by
  show (o.bind fun a => some (a, s)) = some (b, r) ↔ _
  cases o with
  | none => simp
  | some a => simp [eq_comm]

/-- Every element of a repeated draw satisfies what every single draw satisfies. -/
theorem repeatDraw_post {F α : Type} {f : Draw F α} (Q : α → Prop) (hf : ∀ s a r, f s = some (a, r) → Q a)
    {n : Nat} {s : List F} {l : List α} {r : List F} (h : repeatDraw f n s = some (l, r)) :
    l.length = n ∧ ∀ a ∈ l, Q a := by
  induction n generalizing s l r with
  | zero =>
    obtain ⟨rfl, -⟩ := pure_some.mp h
    simp
  | succ n ih =>
    unfold repeatDraw at h
    obtain ⟨a, s1, h1, h⟩ := bind_some.mp h
    obtain ⟨l', s2, h2, h⟩ := bind_some.mp h
    obtain ⟨rfl, -⟩ := pure_some.mp h
    obtain ⟨hl, hq⟩ := ih h2
    refine ⟨by simp [hl], fun b hb => ?_⟩
    rcases List.mem_cons.mp hb with rfl | hb
    · exact hf _ _ _ h1
    · exact hq b hb

/-- If every draw from `replicate (m + k) x` yields `a` and uses up `k` numbers, `n` draws yield `n` copies. -/
theorem repeatDraw_replicate {F α : Type} {f : Draw F α} {x : F} {a : α} {k : Nat}
    (hf : ∀ m, f (List.replicate (k + m) x) = some (a, List.replicate m x)) (n m : Nat) :
    repeatDraw f n (List.replicate (n * k + m) x) = some (List.replicate n a, List.replicate m x) := by
  induction n with
  | zero => simp [repeatDraw]; rfl
  | succ n ih =>
    unfold repeatDraw
    have : (n + 1) * k + m = k + (n * k + m) := by rw [Nat.succ_mul]; omega
    rw [this, bind_eq (hf _), bind_eq ih]
    rfl

theorem randomScalar_replicate {F : Type} (x : F) (m : Nat) :
    randomScalar (List.replicate (1 + m) x) = some (x, List.replicate m x) := by
  rw [Nat.add_comm, List.replicate_succ]; rfl

end ZkHash.Fields
