import Verif.Model.SageGen
import Mathlib.Data.Nat.Bitwise
import Mathlib.Data.ZMod.Basic
import Mathlib.Tactic.Ring
import Mathlib.Tactic.LinearCombination

set_option autoImplicit false

/-!
# The shift register of the script as a sequence of bits
-/

namespace ZkHash.Sage

/-- The recurrence of the register, `q` times as wide. -/
def Rec (q : Nat) (b : Nat → Bool) : Prop :=
  ∀ n, b (n + 80 * q) = (b (n + 62 * q) ^^ b (n + 51 * q) ^^ b (n + 38 * q) ^^ b (n + 23 * q) ^^ b (n + 13 * q) ^^ b n)

/-- A bit as an element of the field with two elements. -/
def bit2 (x : Bool) : ZMod 2 := if x then 1 else 0

theorem bit2_xor (x y : Bool) : bit2 (x ^^ y) = bit2 x + bit2 y := by cases x <;> cases y <;> decide

theorem bit2_inj {x y : Bool} (h : bit2 x = bit2 y) : x = y := by
  revert h; cases x <;> cases y <;> decide

/-- In characteristic 2, the recurrence can be squared. -/
theorem Rec.double {q : Nat} {b : Nat → Bool} (h : Rec q b) : Rec (2 * q) b := by
  intro n
  have e : ∀ x y : Nat, n + x * q + y * q = n + (x + y) * q := fun x y => by ring
  have h0 := congrArg bit2 (h n)
  have h62 := congrArg bit2 (h (n + 62 * q))
  have h51 := congrArg bit2 (h (n + 51 * q))
  have h38 := congrArg bit2 (h (n + 38 * q))
  have h23 := congrArg bit2 (h (n + 23 * q))
  have h13 := congrArg bit2 (h (n + 13 * q))
  have h80 := congrArg bit2 (h (n + 80 * q))
  simp only [e, Nat.reduceAdd, bit2_xor] at h62 h51 h38 h23 h13 h80 h0
  have e2 : ∀ x : Nat, x * (2 * q) = (2 * x) * q := fun x => by ring
  simp only [e2, Nat.reduceMul]
  apply bit2_inj
  simp only [bit2_xor]
  have h2 : (2 : ZMod 2) = 0 := by decide
  linear_combination h80 + h62 + h51 + h38 + h23 + h13 + h0 + (bit2 (b (n + 113 * q)) + bit2 (b (n + 100 * q)) +
    bit2 (b (n + 85 * q)) + bit2 (b (n + 75 * q)) + bit2 (b (n + 62 * q)) + bit2 (b (n + 89 * q)) +
    bit2 (b (n + 74 * q)) + bit2 (b (n + 64 * q)) + 2 * bit2 (b (n + 51 * q)) + bit2 (b (n + 61 * q)) +
    bit2 (b (n + 38 * q)) + bit2 (b (n + 36 * q)) + bit2 (b (n + 23 * q)) + bit2 (b (n + 13 * q))) * h2

theorem Rec.pow {b : Nat → Bool} (h : Rec 1 b) (k : Nat) : Rec (2 ^ k) b := by
  induction k with
  | zero => exact h
  | succ k ih => rw [pow_succ']; exact ih.double

/-! ## The register holds 80 consecutive members of the sequence -/

/-- The members `k, ..., k + 79`. -/
def win (b : Nat → Bool) (k : Nat) : List Bool := (List.range 80).map fun i => b (k + i)

theorem shift_win {b : Nat → Bool} (h : Rec 1 b) (k : Nat) : shift (win b k) = some (b (k + 80), win b (k + 1)) := by
  have hn : newBit (win b k) = some (b (k + 80)) := by
    have := h k
    simp only [Nat.mul_one] at this
    simp only [newBit, win, List.getElem?_map, List.getElem?_range (show 62 < 80 by omega),
      List.getElem?_range (show 51 < 80 by omega), List.getElem?_range (show 38 < 80 by omega),
      List.getElem?_range (show 23 < 80 by omega), List.getElem?_range (show 13 < 80 by omega),
      List.getElem?_range (show 0 < 80 by omega), Option.map_some, Option.bind_eq_bind, Option.bind_some,
      Option.pure_def, Nat.add_zero]
    rw [this]
  simp only [shift, hn, Option.bind_eq_bind, Option.bind_some, Option.pure_def, Option.some.injEq, Prod.mk.injEq, true_and]
  rw [win, win, show 80 = 79 + 1 from rfl, List.range_succ_eq_map, List.map_cons, List.tail_cons, List.map_map,
    ← List.range_succ_eq_map, List.range_succ, List.map_append]
  simp only [List.map_cons, List.map_nil]
  congr 1

theorem exists_seq (s : List Bool) (hs : s.length = 80) : ∃ b, Rec 1 b ∧ win b 0 = s := by
  let nxt : List Bool → List Bool := fun s => s.tail ++ [(s.getD 62 false ^^ s.getD 51 false ^^ s.getD 38 false ^^
    s.getD 23 false ^^ s.getD 13 false ^^ s.getD 0 false)]
  let it : Nat → List Bool := fun k => Nat.rec s (fun _ s => nxt s) k
  have hlen : ∀ k, (it k).length = 80 := by
    intro k
    induction k with
    | zero => exact hs
    | succ k ih =>
      show (nxt (it k)).length = 80
      simp only [nxt, List.length_append, List.length_tail, ih, List.length_singleton]
  have hnx : ∀ k i, i < 79 → (it (k + 1)).getD i false = (it k).getD (i + 1) false := by
    intro k i hi
    show (nxt (it k)).getD i false = _
    have := hlen k
    simp only [nxt, List.getD_eq_getElem?_getD]
    rw [List.getElem?_append_left (by rw [List.length_tail, this]; omega), List.getElem?_tail]
  have hget : ∀ i, i < 80 → ∀ k, (it k).getD i false = (it (k + i)).getD 0 false := by
    intro i
    induction i with
    | zero => intros; rfl
    | succ i ih =>
      intro hi k
      rw [← hnx k i (by omega), ih (by omega) (k + 1), show k + 1 + i = k + (i + 1) by omega]
  refine ⟨fun k => (it k).getD 0 false, ?_, ?_⟩
  · intro n
    simp only [Nat.mul_one]
    rw [← hget 62 (by omega), ← hget 51 (by omega), ← hget 38 (by omega), ← hget 23 (by omega), ← hget 13 (by omega),
      show n + 80 = (n + 1) + 79 by omega, ← hget 79 (by omega) (n + 1)]
    show (nxt (it n)).getD 79 false = _
    have := hlen n
    simp only [nxt, List.getD_eq_getElem?_getD]
    rw [List.getElem?_append_right (by rw [List.length_tail, this]), List.length_tail, this]
    simp
  · apply List.ext_getElem?
    intro i
    by_cases hi : i < 80
    · rw [win, List.getElem?_map, List.getElem?_range hi, Option.map_some]
      show some ((it (0 + i)).getD 0 false) = _
      rw [← hget i hi]
      show some (s.getD i false) = _
      rw [List.getD_eq_getElem?_getD, List.getElem?_eq_getElem (by omega), Option.getD_some]
    · rw [List.getElem?_eq_none (by simp [win]; omega), List.getElem?_eq_none (by omega)]

theorem warmUp_win {b : Nat → Bool} (h : Rec 1 b) : warmUp (win b 0) = some (win b 160) := by
  have : ∀ m k, (List.range m).foldlM (fun s _ => do
      let r ← shift s
      pure r.2) (win b k) = some (win b (k + m)) := by
    intro m
    induction m with
    | zero => intro k; simp
    | succ m ih =>
      intro k
      rw [List.range_succ, List.foldlM_append, ih]
      simp [shift_win h, Nat.add_assoc]
  exact (this 160 0).trans (by rw [Nat.zero_add])

theorem nextBit_win {b : Nat → Bool} (h : Rec 1 b) (k : Nat) :
    nextBit (win b k) = if b (k + 80) then some (b (k + 81), win b (k + 2)) else nextBit (win b (k + 2)) := by
  unfold nextBit
  simp only [shift_win h, Option.bind_eq_bind, Option.bind_some]
  rw [skipZeros]
  by_cases hb : b (k + 80)
  · rw [if_neg (by rw [hb]; simp), if_pos hb, Option.bind_some, shift_win h]
  · rw [if_pos (by simpa using hb), if_neg hb]
    simp only [shift_win h, Option.bind_eq_bind, Option.bind_some]

/-! ## Repeated draws -/

/-- Repeating `act` from the state `s` gives the members of the list. -/
inductive Yields {σ α : Type _} (act : σ → Option (α × σ)) : σ → List α → Prop
  | nil (s : σ) : Yields act s []
  | cons {s s' : σ} {a : α} {l : List α} (h : act s = some (a, s')) (hl : Yields act s' l) : Yields act s (a :: l)

theorem Yields.congr {σ α : Type _} {act : σ → Option (α × σ)} {s s' : σ} {l : List α} (h : Yields act s' l)
    (hs : act s = act s') : Yields act s l := by
  cases h with
  | nil => exact Yields.nil s
  | cons h1 h2 => exact Yields.cons (hs.trans h1) h2

/-- The bits that the pairs `(f 0, f 1), (f 2, f 3), ...` give: of a pair with first member 1 the second member. -/
def outF : Nat → (Nat → Bool) → List Bool
  | 0, _ => []
  | m + 1, f => (if f 0 then [f 1] else []) ++ outF m fun i => f (i + 2)

theorem outF_congr (m : Nat) : ∀ f g : Nat → Bool, (∀ i, i < 2 * m → f i = g i) → outF m f = outF m g := by
  induction m with
  | zero => intros; rfl
  | succ m ih =>
    intro f g h
    rw [outF, outF, h 0 (by omega), h 1 (by omega), ih _ (fun i => g (i + 2)) fun i hi => h _ (by omega)]

theorem outF_add (m n : Nat) : ∀ f : Nat → Bool, outF (m + n) f = outF m f ++ outF n fun i => f (i + 2 * m) := by
  induction m with
  | zero => intro f; simp [outF]
  | succ m ih =>
    intro f
    rw [show m + 1 + n = (m + n) + 1 by omega, outF, outF, ih, List.append_assoc]
    congr 2

theorem yields_outF {b : Nat → Bool} (h : Rec 1 b) (m : Nat) : ∀ k,
    Yields nextBit (win b k) (outF m fun i => b (k + 80 + i)) := by
  induction m with
  | zero => intro k; exact Yields.nil _
  | succ m ih =>
    intro k
    have hk := ih (k + 2)
    rw [outF]
    have e : (fun i => b (k + 80 + (i + 2))) = fun i => b (k + 2 + 80 + i) := by
      funext i; congr 1; omega
    rw [e, Nat.add_zero]
    by_cases hb : b (k + 80)
    · rw [if_pos hb]
      exact Yields.cons ((nextBit_win h k).trans (if_pos hb)) hk
    · rw [if_neg hb, List.nil_append]
      exact hk.congr ((nextBit_win h k).trans (if_neg hb))

/-- `int(bits, 2)`. -/
def val (l : List Bool) : Nat := l.foldl (fun x b => 2 * x + b.toNat) 0

theorem val_append (x y : List Bool) : val (x ++ y) = val x * 2 ^ y.length + val y := by
  have gen : ∀ (y : List Bool) (a : Nat), y.foldl (fun x b => 2 * x + b.toNat) a = a * 2 ^ y.length + val y := by
    intro y
    induction y with
    | nil => intro a; simp [val]
    | cons c y ih =>
      intro a
      have : val (c :: y) = (2 * 0 + c.toNat) * 2 ^ y.length + val y := ih _
      rw [List.foldl_cons, ih, this, List.length_cons, pow_succ]
      ring
  rw [val, List.foldl_append, gen, ← val]

theorem val_lt (l : List Bool) : val l < 2 ^ l.length := by
  induction l using List.reverseRecOn with
  | nil => simp [val]
  | append_singleton l c ih =>
    rw [val_append, List.length_append, List.length_singleton, pow_one, pow_succ]
    have : val [c] ≤ 1 := by cases c <;> simp [val]
    omega

theorem Yields.randomBits {s : List Bool} {o : List Bool} (n : Nat) (h : Yields nextBit s o) (hn : n ≤ o.length) :
    ∃ s', grainRandomBits n s = some (val (o.take n), s') ∧ Yields nextBit s' (o.drop n) := by
  have gen : ∀ n, n ≤ o.length → ∃ s', (List.range n).foldlM (fun (st : List Bool × List Bool) _ => do
      let b ← nextBit st.2
      pure (st.1 ++ [b.1], b.2)) ([], s) = some (o.take n, s') ∧ Yields nextBit s' (o.drop n) := by
    intro n
    induction n with
    | zero => intro _; exact ⟨s, by simp, h⟩
    | succ n ih =>
      intro hn
      obtain ⟨s', h1, h2⟩ := ih (by omega)
      rw [List.drop_eq_getElem_cons (by omega)] at h2
      cases h2 with
      | cons h3 h4 =>
        refine ⟨_, ?_, h4⟩
        rw [List.range_succ, List.foldlM_append, h1]
        simp only [Option.bind_eq_bind, Option.bind_some, List.foldlM_cons, h3, Option.pure_def, List.foldlM_nil]
        rw [List.take_succ_eq_append_getElem (by omega)]
  obtain ⟨s', h1, h2⟩ := gen n hn
  exact ⟨s', by rw [grainRandomBits, h1]; rfl, h2⟩

/-- The first `W` words of `n` bits. -/
def words (n : Nat) : Nat → List Bool → List Nat
  | 0, _ => []
  | W + 1, o => val (o.take n) :: words n W (o.drop n)

theorem yields_words (n : Nat) (W : Nat) : ∀ {s o : List Bool}, Yields nextBit s o → n * W ≤ o.length →
    Yields (grainRandomBits n) s (words n W o) := by
  induction W with
  | zero => intro s o _ _; exact Yields.nil s
  | succ W ih =>
    intro s o h hn
    rw [Nat.mul_succ] at hn
    obtain ⟨s', h1, h2⟩ := h.randomBits n (by omega)
    exact Yields.cons h1 (ih h2 (by rw [List.length_drop]; omega))

/-! ## Round constants -/

/-- Draw `num` numbers below `p` from a list of draws: the numbers and the remaining draws. -/
def takeBelow (p : Nat) : Nat → List Nat → Option (List Nat × List Nat)
  | 0, ws => some ([], ws)
  | _ + 1, [] => none
  | num + 1, w :: ws => if w ≥ p then takeBelow p (num + 1) ws else (takeBelow p num ws).map fun r => (w :: r.1, r.2)

theorem drawBelow_of (n p : Nat) : ∀ {ws : List Nat} {s : List Bool} {num : Nat} {r : List Nat × List Nat},
    Yields (grainRandomBits n) s ws → takeBelow p (num + 1) ws = some r →
    ∃ c cs ws' s', r.1 = c :: cs ∧ drawBelow n p s = some (c, s') ∧ Yields (grainRandomBits n) s' ws' ∧
      takeBelow p num ws' = some (cs, r.2) := by
  intro ws
  induction ws with
  | nil => intro s num r _ h; simp [takeBelow] at h
  | cons w ws ih =>
    intro s num r hy h
    cases hy with
    | cons h1 h2 =>
      rw [takeBelow] at h
      by_cases hw : w ≥ p
      · rw [if_pos hw] at h
        obtain ⟨c, cs, ws', s', e1, e2, e3, e4⟩ := ih h2 h
        refine ⟨c, cs, ws', s', e1, ?_, e3, e4⟩
        rw [drawBelow, h1]
        simp only [Option.bind_eq_bind, Option.bind_some]
        rw [if_pos hw, e2]
      · rw [if_neg hw, Option.map_eq_some_iff] at h
        obtain ⟨r', h3, rfl⟩ := h
        refine ⟨w, r'.1, ws, _, rfl, ?_, h2, h3⟩
        rw [drawBelow, h1]
        simp only [Option.bind_eq_bind, Option.bind_some]
        rw [if_neg hw]

/-- The constants with zeros appended in the partial rounds; `i` is the index of the first. -/
def layOut (t R_F R_P : Nat) : Nat → List Nat → List Nat
  | _, [] => []
  | i, c :: cs => c :: (if 2 * i ≥ R_F * t ∧ 2 * i < R_F * t + 2 * R_P then List.replicate (t - 1) 0 else []) ++
      layOut t R_F R_P (i + 1) cs

theorem generateConstants_of {n t R_F R_P p : Nat} {s : List Bool} {ws cs rest : List Nat}
    (hy : Yields (grainRandomBits n) s ws) (h : takeBelow p (R_F * t + R_P) ws = some (cs, rest)) :
    ∃ s', generateConstants n t R_F R_P p s = some (layOut t R_F R_P 0 cs, s') ∧
      Yields (grainRandomBits n) s' rest := by
  have gen : ∀ (m i : Nat) (acc : List Nat) (s : List Bool) (ws cs : List Nat), Yields (grainRandomBits n) s ws →
      takeBelow p m ws = some (cs, rest) →
      ∃ s', ((List.range m).map (· + i)).foldlM (fun (st : List Nat × List Bool) i => do
        let r ← drawBelow n p st.2
        let round_constants := st.1 ++ [r.1]
        if 2 * i ≥ R_F * t ∧ 2 * i < R_F * t + 2 * R_P then
          pure (round_constants ++ List.replicate (t - 1) 0, r.2)
        else
          pure (round_constants, r.2)) (acc, s) = some (acc ++ layOut t R_F R_P i cs, s') ∧
        Yields (grainRandomBits n) s' rest := by
    intro m
    induction m with
    | zero =>
      intro i acc s ws cs hy h
      rw [takeBelow, Option.some.injEq, Prod.mk.injEq] at h
      obtain ⟨rfl, rfl⟩ := h
      exact ⟨s, by simp [layOut], hy⟩
    | succ m ih =>
      intro i acc s ws cs hy h
      obtain ⟨c, cs', ws', s', e1, e2, e3, e4⟩ := drawBelow_of n p hy h
      simp only at e1 e4
      subst e1
      rw [List.range_succ_eq_map, List.map_cons, List.map_map, List.foldlM_cons]
      simp only [e2, Option.bind_eq_bind, Option.bind_some, Nat.zero_add]
      have e : ((fun x => x + i) ∘ Nat.succ) = fun x => x + (i + 1) := by
        funext x; simp only [Function.comp, Nat.succ_eq_add_one]; omega
      rw [e]
      by_cases hc : 2 * i ≥ R_F * t ∧ 2 * i < R_F * t + 2 * R_P
      · rw [if_pos hc, Option.pure_def, Option.bind_some, layOut, if_pos hc]
        obtain ⟨s2, h1, h2⟩ := ih (i + 1) (acc ++ [c] ++ List.replicate (t - 1) 0) s' ws' cs' e3 e4
        refine ⟨s2, ?_, h2⟩
        simpa using h1
      · rw [if_neg hc, Option.pure_def, Option.bind_some, layOut, if_neg hc]
        obtain ⟨s2, h1, h2⟩ := ih (i + 1) (acc ++ [c]) s' ws' cs' e3 e4
        refine ⟨s2, ?_, h2⟩
        simpa using h1
  obtain ⟨s', h1, h2⟩ := gen (R_F * t + R_P) 0 [] s ws cs hy h
  refine ⟨s', ?_, h2⟩
  rw [generateConstants]
  simpa using h1

end ZkHash.Sage
