import Verif.Model.Rust
import Mathlib.Data.List.OfFn
import Mathlib.Data.List.Basic
import Mathlib.Logic.Function.Basic
import Mathlib.Algebra.BigOperators.Fin
import Mathlib.Algebra.BigOperators.Ring.Finset
import Mathlib.Tactic.Ring
import Mathlib.Tactic.Linarith

set_option autoImplicit false

/-!
# Lists given by functions, and loop lemmas

`tl n f` is the list `[f 0, ..., f (n-1)]` and `tm n m A` the corresponding `n x m` list of lists. All loops of the
model are analysed through them.
-/

namespace ZkHash

/-- The list `[f 0, ..., f (n-1)]`. -/
def tl {α : Type _} (n : Nat) (f : Nat → α) : List α := (List.range n).map f

/-- The `n x m` table with entries `A i j`. -/
def tm {α : Type _} (n m : Nat) (A : Nat → Nat → α) : List (List α) := tl n fun i => tl m (A i)

variable {α β σ : Type _}

@[simp] theorem tl_length (n : Nat) (f : Nat → α) : (tl n f).length = n := by simp [tl]

@[simp] theorem tm_length (n m : Nat) (A : Nat → Nat → α) : (tm n m A).length = n := by simp [tm]

theorem tl_getElem? (n : Nat) (f : Nat → α) (i : Nat) :
    (tl n f)[i]? = if i < n then some (f i) else none := by
  unfold tl
  by_cases h : i < n
  · simp [h]
  · simp [h]

@[simp] theorem tl_getElem (n : Nat) (f : Nat → α) (i : Nat) (h : i < (tl n f).length) : (tl n f)[i] = f i := by
  simp [tl]

theorem tl_get {n : Nat} (f : Nat → α) {i : Nat} (h : i < n) : (tl n f)[i]? = some (f i) := by
  rw [tl_getElem?, if_pos h]

theorem tl_get_none {n : Nat} (f : Nat → α) {i : Nat} (h : n ≤ i) : (tl n f)[i]? = none := by
  rw [tl_getElem?, if_neg (by omega)]

theorem tl_congr {n : Nat} {f g : Nat → α} (h : ∀ i, i < n → f i = g i) : tl n f = tl n g := by
  unfold tl
  apply List.map_congr_left
  intro i hi
  exact h i (List.mem_range.mp hi)

theorem tl_inj {n : Nat} {f g : Nat → α} : tl n f = tl n g ↔ ∀ i, i < n → f i = g i := by
  constructor
  · intro h i hi
    have := congrArg (fun l => l[i]?) h
    simpa [tl_get _ hi] using this
  · exact tl_congr

theorem tm_congr {n m : Nat} {A B : Nat → Nat → α} (h : ∀ i, i < n → ∀ j, j < m → A i j = B i j) :
    tm n m A = tm n m B :=
  tl_congr fun i hi => tl_congr fun j hj => h i hi j hj

theorem tm_inj {n m : Nat} {A B : Nat → Nat → α} :
    tm n m A = tm n m B ↔ ∀ i, i < n → ∀ j, j < m → A i j = B i j := by
  constructor
  · intro h i hi j hj
    exact tl_inj.mp (tl_inj.mp h i hi) j hj
  · exact tm_congr

/-- Every list is a `tl`. -/
theorem eq_tl (l : List α) (d : α) : l = tl l.length fun i => l.getD i d := by
  apply List.ext_getElem?
  intro i
  rw [tl_getElem?]
  by_cases h : i < l.length
  · simp [h]
  · simp [h]

theorem tl_eq_ofFn (n : Nat) (f : Nat → α) : tl n f = List.ofFn fun i : Fin n => f i := by
  apply List.ext_getElem?
  intro i
  rw [tl_getElem?, List.getElem?_ofFn]
  by_cases h : i < n <;> simp [h]

/-- Extension of a finite vector by a default value. -/
def ext0 {n : Nat} (z : α) (x : Fin n → α) : Nat → α := fun i => if h : i < n then x ⟨i, h⟩ else z

theorem ext0_lt {n : Nat} (z : α) (x : Fin n → α) {i : Nat} (h : i < n) : ext0 z x i = x ⟨i, h⟩ := by
  simp [ext0, h]

@[simp] theorem ext0_fin {n : Nat} (z : α) (x : Fin n → α) (i : Fin n) : ext0 z x i = x i := by
  simp [ext0]

theorem ofFn_eq_tl {n : Nat} (z : α) (x : Fin n → α) : List.ofFn x = tl n (ext0 z x) := by
  rw [tl_eq_ofFn]; congr 1; funext i; simp

theorem setAt_tl {n : Nat} (f : Nat → α) {i : Nat} (x : α) (h : i < n) :
    setAt (tl n f) i x = some (tl n (Function.update f i x)) := by
  unfold setAt
  rw [if_pos (by simpa using h)]
  congr 1
  apply List.ext_getElem?
  intro j
  rw [List.getElem?_set, tl_getElem?, tl_getElem?, tl_length]
  by_cases hij : i = j
  · subst hij; simp [h]
  · rw [if_neg hij, Function.update_of_ne (Ne.symm hij)]

theorem setAt_tl_none {n : Nat} (f : Nat → α) {i : Nat} (x : α) (h : n ≤ i) :
    setAt (tl n f) i x = none := by
  unfold setAt
  rw [if_neg (by simpa using h)]

theorem setAt_length {l l' : List α} {i : Nat} {x : α} (h : setAt l i x = some l') : l'.length = l.length := by
  unfold setAt at h
  split at h
  · simp only [Option.some.injEq] at h; rw [← h]; simp
  · simp at h

/-- Matrix with one entry replaced. -/
def upd2 (A : Nat → Nat → α) (i j : Nat) (x : α) : Nat → Nat → α :=
  fun a b => if a = i ∧ b = j then x else A a b

theorem get2_tm {n m : Nat} (A : Nat → Nat → α) {i j : Nat} (hi : i < n) (hj : j < m) :
    get2 (tm n m A) i j = some (A i j) := by
  unfold get2 tm
  simp [tl_get _ hi, tl_get _ hj]

theorem set2_tm {n m : Nat} (A : Nat → Nat → α) {i j : Nat} (x : α) (hi : i < n) (hj : j < m) :
    set2 (tm n m A) i j x = some (tm n m (upd2 A i j x)) := by
  unfold set2 tm
  simp only [tl_get _ hi, Option.bind_eq_bind, Option.bind_some, setAt_tl _ _ hj, setAt_tl _ _ hi]
  congr 1
  apply tl_congr
  intro a ha
  by_cases hai : a = i
  · subst hai
    rw [Function.update_self]
    apply tl_congr
    intro b hb
    unfold upd2
    by_cases hbj : b = j
    · subst hbj; simp
    · simp [hbj]
  · rw [Function.update_of_ne hai]
    apply tl_congr
    intro b hb
    simp [upd2, hai]

theorem getElem?_getD {l : List α} {i : Nat} (d : α) (h : i < l.length) : l[i]? = some (l.getD i d) := by
  simp [List.getD_eq_getElem?_getD, h]

theorem getD_getElem {l : List α} {i : Nat} (d : α) (h : i < l.length) : l.getD i d = l[i] := by
  simp [List.getD_eq_getElem?_getD, h]

/-! ## Loops -/

/-- A loop over `0..n` whose state after `i` iterations is `g i`. -/
theorem foldlM_range (f : σ → Nat → Option σ) (n : Nat) (g : Nat → σ)
    (h : ∀ i, i < n → f (g i) i = some (g (i + 1))) :
    (List.range n).foldlM f (g 0) = some (g n) := by
  induction n with
  | zero => simp
  | succ n ih =>
    rw [List.range_succ, List.foldlM_append, ih fun i hi => h i (by omega)]
    simp [h n (by omega)]

/-- A loop over `0..n` with an indexed invariant. -/
theorem foldlM_range_ex (f : σ → Nat → Option σ) (n : Nat) (P : Nat → σ → Prop)
    (h : ∀ i, i < n → ∀ s, P i s → ∃ s', f s i = some s' ∧ P (i + 1) s') (s : σ) (hs : P 0 s) :
    ∃ s', (List.range n).foldlM f s = some s' ∧ P n s' := by
  induction n with
  | zero => exact ⟨s, by simp, hs⟩
  | succ n ih =>
    obtain ⟨s1, h1, p1⟩ := ih fun i hi => h i (by omega)
    obtain ⟨s2, h2, p2⟩ := h n (by omega) s1 p1
    exact ⟨s2, by rw [List.range_succ, List.foldlM_append, h1]; simp [h2], p2⟩

/-- A loop over `a..a+n` whose state after `i` iterations is `g i`. -/
theorem foldlM_range' (f : σ → Nat → Option σ) (a n : Nat) (g : Nat → σ)
    (h : ∀ i, i < n → f (g i) (a + i) = some (g (i + 1))) :
    (List.range' a n).foldlM f (g 0) = some (g n) := by
  induction n with
  | zero => simp
  | succ n ih =>
    rw [List.range'_concat, List.foldlM_append, ih fun i hi => h i (by omega)]
    simp [h n (by omega)]

/-- A loop over `(a..a+n).rev()` whose state after `i` iterations is `g i`. -/
theorem foldlM_range'_rev (f : σ → Nat → Option σ) (a n : Nat) (g : Nat → σ)
    (h : ∀ i, i < n → f (g i) (a + n - 1 - i) = some (g (i + 1))) :
    ((List.range' a n).reverse).foldlM f (g 0) = some (g n) := by
  have key : (List.range' a n).reverse = tl n fun i => a + n - 1 - i := by
    apply List.ext_getElem
    · simp
    · intro i h1 h2
      simp only [tl_length] at h2
      simp [tl]
      omega
  rw [key]
  unfold tl
  rw [List.foldlM_map]
  exact foldlM_range _ n g h

theorem foldlM_range_rev (f : σ → Nat → Option σ) (n : Nat) (g : Nat → σ)
    (h : ∀ i, i < n → f (g i) (n - 1 - i) = some (g (i + 1))) :
    ((List.range n).reverse).foldlM f (g 0) = some (g n) := by
  rw [List.range_eq_range']
  apply foldlM_range'_rev
  intro i hi
  simpa using h i hi

/-- A loop over `l.iter().enumerate()`. -/
theorem foldlM_zipIdx_tl (f : σ → α × Nat → Option σ) (n : Nat) (x : Nat → α) (g : Nat → σ)
    (h : ∀ i, i < n → f (g i) (x i, i) = some (g (i + 1))) :
    ((tl n x).zipIdx).foldlM f (g 0) = some (g n) := by
  have key : (tl n x).zipIdx = tl n fun i => (x i, i) := by
    apply List.ext_getElem
    · simp
    · intro i h1 h2
      simp [tl]
  rw [key]
  unfold tl
  rw [List.foldlM_map]
  exact foldlM_range _ n g h

/-- A loop that preserves an invariant, possibly panicking. -/
theorem foldlM_inv {ι : Type _} (f : σ → ι → Option σ) (P : σ → Prop) (l : List ι)
    (h : ∀ s i s', i ∈ l → P s → f s i = some s' → P s') :
    ∀ s s', P s → l.foldlM f s = some s' → P s' := by
  induction l with
  | nil => intro s s' hs h'; simp at h'; exact h' ▸ hs
  | cons a l ih =>
    intro s s' hs h'
    rw [List.foldlM_cons] at h'
    simp only [Option.bind_eq_bind, Option.bind_eq_some_iff] at h'
    obtain ⟨s1, h1, h2⟩ := h'
    exact ih (fun s i s' hi => h s i s' (List.mem_cons_of_mem _ hi)) s1 s'
      (h s a s1 List.mem_cons_self hs h1) h2

/-- A loop that panics at some iteration. -/
theorem foldlM_none_of_mem {ι : Type _} (f : σ → ι → Option σ) (P : σ → Prop) (l : List ι) (a : ι) (ha : a ∈ l)
    (hstep : ∀ s i s', i ∈ l → P s → f s i = some s' → P s')
    (hnone : ∀ s, P s → f s a = none) :
    ∀ s, P s → l.foldlM f s = none := by
  induction l with
  | nil => simp at ha
  | cons b l ih =>
    intro s hs
    rw [List.foldlM_cons]
    cases hb : f s b with
    | none => simp
    | some s1 =>
      simp only [Option.bind_eq_bind, Option.bind_some]
      rcases List.mem_cons.mp ha with hab | hal
      · subst hab; rw [hnone s hs] at hb; cases hb
      · exact ih hal (fun s i s' hi => hstep s i s' (List.mem_cons_of_mem _ hi)) s1
          (hstep s b s1 List.mem_cons_self hs hb)

theorem foldlM_congr {ι : Type _} (f g : σ → ι → Option σ) (l : List ι)
    (h : ∀ s i, i ∈ l → f s i = g s i) : ∀ s, l.foldlM f s = l.foldlM g s := by
  induction l with
  | nil => intro s; simp
  | cons a l ih =>
    intro s
    rw [List.foldlM_cons, List.foldlM_cons, h s a List.mem_cons_self]
    congr 1
    funext s'
    exact ih (fun s i hi => h s i (List.mem_cons_of_mem _ hi)) s'

theorem foldlM_congr_inv {ι : Type _} (f g : σ → ι → Option σ) (P : σ → Prop) (l : List ι)
    (hstep : ∀ s i s', i ∈ l → P s → f s i = some s' → P s')
    (h : ∀ s i, i ∈ l → P s → f s i = g s i) : ∀ s, P s → l.foldlM f s = l.foldlM g s := by
  induction l with
  | nil => intro s _; simp
  | cons a l ih =>
    intro s hs
    rw [List.foldlM_cons, List.foldlM_cons, ← h s a List.mem_cons_self hs]
    cases hf : f s a with
    | none => rfl
    | some s1 =>
      exact ih (fun s i s' hi => hstep s i s' (List.mem_cons_of_mem _ hi))
        (fun s i hi => h s i (List.mem_cons_of_mem _ hi)) s1 (hstep s a s1 List.mem_cons_self hs hf)

theorem foldl_tl (f : β → α → β) (n : Nat) (x : Nat → α) (b : β) :
    (tl n x).foldl f b = (List.range n).foldl (fun b i => f b (x i)) b := by
  unfold tl; rw [List.foldl_map]

theorem foldl_add_tl {M : Type _} [AddCommMonoid M] (n : Nat) (x : Nat → M) (b : M) :
    (tl n x).foldl (· + ·) b = b + ∑ i ∈ Finset.range n, x i := by
  induction n with
  | zero => simp [tl]
  | succ n ih =>
    have : tl (n + 1) x = tl n x ++ [x n] := by simp [tl, List.range_succ]
    rw [this, List.foldl_append, ih, Finset.sum_range_succ]
    simp [add_assoc]

theorem tl_drop (n k : Nat) (x : Nat → α) : (tl n x).drop k = tl (n - k) fun i => x (k + i) := by
  apply List.ext_getElem?
  intro i
  rw [List.getElem?_drop, tl_getElem?, tl_getElem?]
  by_cases h : k + i < n
  · rw [if_pos h, if_pos (by omega)]
  · rw [if_neg h, if_neg (by omega)]

theorem tl_take (n k : Nat) (x : Nat → α) : (tl n x).take k = tl (min k n) x := by
  apply List.ext_getElem?
  intro i
  rw [List.getElem?_take, tl_getElem?, tl_getElem?]
  by_cases h : i < k <;> by_cases h' : i < n <;> simp [h, h']

theorem tl_map (n : Nat) (x : Nat → α) (f : α → β) : (tl n x).map f = tl n fun i => f (x i) := by
  simp [tl, Function.comp_def]

theorem tl_zipWith {γ : Type _} (f : α → β → γ) (n m : Nat) (x : Nat → α) (y : Nat → β) :
    List.zipWith f (tl n x) (tl m y) = tl (min n m) fun i => f (x i) (y i) := by
  apply List.ext_getElem?
  intro i
  rw [List.getElem?_zipWith, tl_getElem?, tl_getElem?, tl_getElem?]
  by_cases h : i < n <;> by_cases h' : i < m <;> simp [h, h']

theorem tl_mapM (n : Nat) (x : Nat → α) (f : α → Option β) (g : α → β)
    (h : ∀ i, i < n → f (x i) = some (g (x i))) :
    (tl n x).mapM f = some (tl n fun i => g (x i)) := by
  induction n with
  | zero => simp [tl]
  | succ n ih =>
    have e1 : tl (n + 1) x = tl n x ++ [x n] := by simp [tl, List.range_succ]
    have e2 : (tl (n + 1) fun i => g (x i)) = (tl n fun i => g (x i)) ++ [g (x n)] := by
      simp [tl, List.range_succ]
    rw [e1, e2, List.mapM_append, ih fun i hi => h i (by omega)]
    simp [h n (by omega)]

theorem replicate_eq_tl (n : Nat) (a : α) : List.replicate n a = tl n fun _ => a := by
  simp [tl]

theorem replicate2_eq_tm (n m : Nat) (a : α) :
    List.replicate n (List.replicate m a) = tm n m fun _ _ => a := by
  rw [replicate_eq_tl, replicate_eq_tl]; rfl

theorem uadd_fits (dbg : Bool) {a b : Nat} (h : a + b < 2 ^ 64) : uadd dbg a b = some (a + b) := if_pos h

theorem uadd_debug {a b : Nat} (h : 2 ^ 64 ≤ a + b) : uadd true a b = none := by
  unfold uadd usizeSize
  rw [if_neg (by omega), if_pos rfl]

theorem uadd_release {a b : Nat} (h : 2 ^ 64 ≤ a + b) (ha : a < 2 ^ 64) (hb : b < 2 ^ 64) :
    uadd false a b = some (a + b - 2 ^ 64) := by
  unfold uadd usizeSize
  rw [if_neg (by omega), if_neg (by decide)]
  exact congrArg some (by omega)

theorem uadd_some_iff {dbg : Bool} {a b c : Nat} :
    uadd dbg a b = some c ↔ (dbg = true → a + b < 2 ^ 64) ∧ c = (a + b) % 2 ^ 64 := by
  unfold uadd usizeSize
  split
  · rename_i h
    rw [Nat.mod_eq_of_lt h]
    simp only [Option.some.injEq]
    exact ⟨fun e => ⟨fun _ => h, e.symm⟩, fun e => e.2.symm⟩
  · rename_i h
    cases dbg
    · simp only [Bool.false_eq_true, if_false, Option.some.injEq, false_implies, true_and]
      exact eq_comm
    · simp [h]

theorem uadd_none {dbg : Bool} {a b : Nat} (h : uadd dbg a b = none) : dbg = true ∧ 2 ^ 64 ≤ a + b := by
  unfold uadd usizeSize at h
  split at h
  · cases h
  · split at h
    · exact ⟨by assumption, by omega⟩
    · cases h

end ZkHash
