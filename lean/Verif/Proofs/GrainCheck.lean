import Verif.Proofs.Grain
import Verif.Proofs.PoseidonCheck

set_option autoImplicit false

/-!
# The bits of the script's generator, computed by the kernel

A run of the register is one large number, extended by many bits at a time with the squared recurrences. The bits that
the generator yields are read off in blocks of six pairs, with a table.
-/

namespace ZkHash.Sage

open PoseidonSource.Fast (force force_eq)

/-! ## The register -/

/-- The first `m` members of the sequence, as the binary digits of `N`, the first one the least significant. -/
def Prefix (b : Nat → Bool) (N m : Nat) : Prop := ∀ i, N.testBit i = (decide (i < m) && b i)

/-- `k` of a longer prefix: `fuel` times, `18 * q` more members. -/
noncomputable def extend (fuel : Nat) : Nat → Nat → Nat → (Nat → Nat → Bool) → Bool :=
  Nat.rec (motive := fun _ => Nat → Nat → Nat → (Nat → Nat → Bool) → Bool) (fun N m _ k => k N m)
    (fun _ ih N m q k =>
      force (Nat.mod (Nat.xor (Nat.shiftRight N (m - 18 * q)) (Nat.xor (Nat.shiftRight N (m - 29 * q))
        (Nat.xor (Nat.shiftRight N (m - 42 * q)) (Nat.xor (Nat.shiftRight N (m - 57 * q))
        (Nat.xor (Nat.shiftRight N (m - 67 * q)) (Nat.shiftRight N (m - 80 * q))))))) (Nat.pow 2 (18 * q))) fun x =>
      force (Nat.lor N (Nat.shiftLeft x m)) fun N' =>
      force (m + 18 * q) fun m' =>
      Bool.rec (motive := fun _ => Bool) (ih N' m' q k) (force (2 * q) fun q' => ih N' m' q' k) (Nat.ble (160 * q) m')) fuel

theorem extend_succ (fuel N m q : Nat) (k : Nat → Nat → Bool) : extend (fuel + 1) N m q k =
    force ((N >>> (m - 18 * q) ^^^ (N >>> (m - 29 * q) ^^^ (N >>> (m - 42 * q) ^^^ (N >>> (m - 57 * q) ^^^
      (N >>> (m - 67 * q) ^^^ N >>> (m - 80 * q)))))) % 2 ^ (18 * q)) fun x =>
    force (N ||| x <<< m) fun N' => force (m + 18 * q) fun m' =>
    Bool.rec (motive := fun _ => Bool) (extend fuel N' m' q k) (force (2 * q) fun q' => extend fuel N' m' q' k)
      (Nat.ble (160 * q) m') := rfl

theorem prefix_extend {b : Nat → Bool} {N m q : Nat} (hN : Prefix b N m) (hq : Rec q b) (hm : 80 * q ≤ m) :
    Prefix b (N ||| ((N >>> (m - 18 * q) ^^^ (N >>> (m - 29 * q) ^^^ (N >>> (m - 42 * q) ^^^ (N >>> (m - 57 * q) ^^^
      (N >>> (m - 67 * q) ^^^ N >>> (m - 80 * q)))))) % 2 ^ (18 * q)) <<< m) (m + 18 * q) := by
  intro i
  rw [Nat.testBit_or, Nat.testBit_shiftLeft, hN i]
  by_cases hi : i < m
  · simp [hi, show ¬ i ≥ m by omega, show i < m + 18 * q by omega]
  · simp only [hi, decide_false, Bool.false_and, Bool.false_or, show i ≥ m by omega, decide_true, Bool.true_and]
    rw [Nat.testBit_mod_two_pow]
    by_cases h2 : i < m + 18 * q
    · obtain ⟨j, rfl⟩ : ∃ j, i = m + j := ⟨i - m, by omega⟩
      have hj : m + j - m = j := by omega
      rw [hj]
      simp only [show j < 18 * q by omega, decide_true, Bool.true_and, h2]
      simp only [Nat.testBit_xor, Nat.testBit_shiftRight]
      rw [hN, hN, hN, hN, hN, hN]
      simp only [show m - 18 * q + j < m by omega, show m - 29 * q + j < m by omega, show m - 42 * q + j < m by omega,
        show m - 57 * q + j < m by omega, show m - 67 * q + j < m by omega, show m - 80 * q + j < m by omega,
        decide_true, Bool.true_and]
      have := hq (m - 80 * q + j)
      rw [show m - 80 * q + j + 80 * q = m + j by omega, show m - 80 * q + j + 62 * q = m - 18 * q + j by omega,
        show m - 80 * q + j + 51 * q = m - 29 * q + j by omega, show m - 80 * q + j + 38 * q = m - 42 * q + j by omega,
        show m - 80 * q + j + 23 * q = m - 57 * q + j by omega,
        show m - 80 * q + j + 13 * q = m - 67 * q + j by omega] at this
      rw [this]
      simp only [Bool.xor_assoc]
    · simp only [h2, show ¬ i - m < 18 * q by omega, decide_false, Bool.false_and]

theorem extend_imp {b : Nat → Bool} (fuel : Nat) : ∀ {N m q : Nat} {k : Nat → Nat → Bool}, Prefix b N m → Rec q b →
    80 * q ≤ m → extend fuel N m q k = true → ∃ N' m', Prefix b N' m' ∧ k N' m' = true := by
  induction fuel with
  | zero => intro N m q k hN _ _ h; exact ⟨N, m, hN, h⟩
  | succ fuel ih =>
    intro N m q k hN hq hm h
    have h' := prefix_extend hN hq hm
    rw [extend_succ, force_eq, force_eq, force_eq, force_eq] at h
    cases hb : Nat.ble (160 * q) (m + 18 * q) with
    | false =>
      rw [hb] at h
      exact ih h' hq (by omega) h
    | true =>
      rw [hb] at h
      exact ih h' hq.double (by have := Nat.ble_eq.mp hb; omega) h

/-! ## Reading off the bits -/

/-- The number of bits and the bits that six pairs give, as one number. -/
def entry (c : Nat) : Nat := (outF 6 c.testBit).length * 64 + val (outF 6 c.testBit)

theorem outF_length (m : Nat) : ∀ f, (outF m f).length ≤ m := by
  induction m with
  | zero => intro f; simp [outF]
  | succ m ih =>
    intro f
    have := ih fun i => f (i + 2)
    rw [outF, List.length_append]
    split <;> simp <;> omega

theorem entry_val_lt (c : Nat) : val (outF 6 c.testBit) < 64 :=
  lt_of_lt_of_le (val_lt _) (Nat.pow_le_pow_right (n := 2) (by omega) (outF_length 6 _))

theorem entry_div (c : Nat) : entry c / 64 = (outF 6 c.testBit).length := by
  have := entry_val_lt c
  unfold entry
  omega

theorem entry_mod (c : Nat) : entry c % 64 = val (outF 6 c.testBit) := by
  have := entry_val_lt c
  unfold entry
  omega

theorem entry_lt (c : Nat) : entry c < 512 := by
  have := entry_val_lt c
  have := outF_length 6 c.testBit
  unfold entry
  omega

/-- All entries, nine binary digits each. -/
def table : Nat := (List.range 4096).foldr (fun c T => T * 512 + entry c) 0

theorem foldr_digit (l : List Nat) : ∀ i, i < l.length →
    (l.foldr (fun c T => T * 512 + entry c) 0 / 512 ^ i) % 512 = entry (l.getD i 0) := by
  induction l with
  | nil => intro i hi; simp at hi
  | cons c l ih =>
    intro i hi
    have := entry_lt c
    rw [List.foldr_cons]
    cases i with
    | zero => simp; omega
    | succ i =>
      rw [Nat.pow_succ', ← Nat.div_div_eq_div_mul,
        show (l.foldr (fun c T => T * 512 + entry c) 0 * 512 + entry c) / 512 = l.foldr (fun c T => T * 512 + entry c) 0 by
          omega, ih i (by simpa using hi)]
      rfl

theorem table_entry (c : Nat) (hc : c < 4096) : (table >>> (9 * c)) % 512 = entry c := by
  rw [Nat.shiftRight_eq_div_pow, show 2 ^ (9 * c) = 512 ^ c by rw [pow_mul]; norm_num]
  have := foldr_digit (List.range 4096) c (by simpa using hc)
  rw [List.getD_eq_getElem _ _ (by simpa using hc), List.getElem_range] at this
  exact this

attribute [irreducible] table

/-- `k` of the number of bits that `6 * fuel` pairs give, and of these bits as a number, appended to those in `O`. -/
noncomputable def extract (T fuel : Nat) : Nat → Nat → Nat → (Nat → Nat → Bool) → Bool :=
  Nat.rec (motive := fun _ => Nat → Nat → Nat → (Nat → Nat → Bool) → Bool) (fun _ O c k => k O c)
    (fun _ ih N O c k =>
      force (Nat.mod (Nat.shiftRight T (Nat.mul 9 (Nat.mod N 4096))) 512) fun e =>
      force (Nat.div e 64) fun l =>
      force (Nat.add (Nat.shiftLeft O l) (Nat.mod e 64)) fun O' =>
      force (Nat.add c l) fun c' =>
      force (Nat.shiftRight N 12) fun N' => ih N' O' c' k) fuel

theorem extract_succ (T fuel N O c : Nat) (k : Nat → Nat → Bool) : extract T (fuel + 1) N O c k =
    force ((T >>> (9 * (N % 4096))) % 512) fun e => force (e / 64) fun l => force (O <<< l + e % 64) fun O' =>
    force (c + l) fun c' => force (N >>> 12) fun N' => extract T fuel N' O' c' k := rfl

theorem extract_imp {T : Nat} (hT : ∀ c, c < 4096 → (T >>> (9 * c)) % 512 = entry c) (fuel : Nat) : ∀ {N : Nat} {o : List Bool} {k : Nat → Nat → Bool} (f : Nat → Bool),
    (∀ i, i < 12 * fuel → N.testBit i = f i) → extract T fuel N (val o) o.length k = true →
    k (val (o ++ outF (6 * fuel) f)) (o ++ outF (6 * fuel) f).length = true := by
  induction fuel with
  | zero =>
    intro N o k f _ h
    have h : k (val o) o.length = true := h
    simpa [outF] using h
  | succ fuel ih =>
    intro N o k f hN h
    rw [extract_succ, force_eq, force_eq, force_eq, force_eq, force_eq] at h
    rw [hT _ (Nat.mod_lt _ (by omega)), entry_div, entry_mod, Nat.shiftLeft_eq, ← val_append,
      ← List.length_append] at h
    have h6 : outF 6 (N % 4096).testBit = outF 6 f := by
      apply outF_congr
      intro i hi
      rw [show 4096 = 2 ^ 12 from rfl, Nat.testBit_mod_two_pow, ← hN i (by omega)]
      simp [show i < 12 by omega]
    rw [h6] at h
    have := ih (fun i => f (i + 12)) (fun i hi => by
      rw [Nat.testBit_shiftRight, hN _ (by omega), Nat.add_comm]) h
    rw [List.append_assoc] at this
    rw [show 6 * (fuel + 1) = 6 + 6 * fuel by omega, outF_add]
    exact this

/-- The same for `32 * fuel` turns of `extract`, 32 turns at a time on a number of 384 binary digits. -/
noncomputable def extractB (T fuel : Nat) : Nat → Nat → Nat → (Nat → Nat → Bool) → Bool :=
  Nat.rec (motive := fun _ => Nat → Nat → Nat → (Nat → Nat → Bool) → Bool) (fun _ O c k => k O c)
    (fun _ ih N O c k =>
      force (Nat.mod N (2 ^ 384)) fun x =>
      force (Nat.shiftRight N 384) fun N' =>
      extract T 32 x 0 0 fun o l =>
      force (Nat.add (Nat.shiftLeft O l) o) fun O' =>
      force (Nat.add c l) fun c' => ih N' O' c' k) fuel

theorem extractB_succ (T fuel N O c : Nat) (k : Nat → Nat → Bool) : extractB T (fuel + 1) N O c k =
    force (N % 2 ^ 384) fun x => force (N >>> 384) fun N' => extract T 32 x 0 0 fun o l => force (O <<< l + o) fun O' =>
    force (c + l) fun c' => extractB T fuel N' O' c' k := rfl

theorem extractB_imp {T : Nat} (hT : ∀ c, c < 4096 → (T >>> (9 * c)) % 512 = entry c) (fuel : Nat) :
    ∀ {N : Nat} {o : List Bool} {k : Nat → Nat → Bool} (f : Nat → Bool),
    (∀ i, i < 384 * fuel → N.testBit i = f i) → extractB T fuel N (val o) o.length k = true →
    k (val (o ++ outF (192 * fuel) f)) (o ++ outF (192 * fuel) f).length = true := by
  induction fuel with
  | zero =>
    intro N o k f _ h
    have h : k (val o) o.length = true := h
    simpa [outF] using h
  | succ fuel ih =>
    intro N o k f hN h
    rw [extractB_succ, force_eq, force_eq] at h
    have h := extract_imp hT 32 (o := []) f (fun i hi => by
      rw [Nat.testBit_mod_two_pow, ← hN i (by omega)]
      simp [show i < 384 by omega]) h
    simp only [force_eq, List.nil_append] at h
    rw [Nat.shiftLeft_eq, ← val_append, ← List.length_append] at h
    have := ih (fun i => f (i + 384)) (fun i hi => by
      rw [Nat.testBit_shiftRight, hN _ (by omega), Nat.add_comm]) h
    rw [List.append_assoc] at this
    rw [show 192 * (fuel + 1) = 6 * 32 + 192 * fuel by omega, outF_add]
    exact this

/-- `k` of the first `W` words of `n` binary digits of `O`, a number of `c` binary digits. -/
noncomputable def wordsF (n W : Nat) : Nat → Nat → (List Nat → Bool) → Bool :=
  Nat.rec (motive := fun _ => Nat → Nat → (List Nat → Bool) → Bool) (fun _ _ k => k [])
    (fun _ ih O c k => force (Nat.sub c n) fun c' => force (Nat.pow 2 c') fun q =>
      force (Nat.div O q) fun w => force (Nat.mod O q) fun O' => ih O' c' fun ws => k (w :: ws)) W

theorem wordsF_succ (n W O c : Nat) (k : List Nat → Bool) : wordsF n (W + 1) O c k =
    force (c - n) fun c' => force (2 ^ c') fun q => force (O / q) fun w => force (O % q) fun O' =>
      wordsF n W O' c' fun ws => k (w :: ws) := rfl

theorem wordsF_imp (n : Nat) (W : Nat) : ∀ {o : List Bool} {k : List Nat → Bool}, n * W ≤ o.length →
    wordsF n W (val o) o.length k = true → k (words n W o) = true := by
  induction W with
  | zero => intro o k _ h; exact h
  | succ W ih =>
    intro o k hn h
    rw [Nat.mul_succ] at hn
    rw [wordsF_succ, force_eq, force_eq, force_eq, force_eq] at h
    have hv : val o = val (o.take n) * 2 ^ (o.length - n) + val (o.drop n) := by
      rw [← List.length_drop, ← val_append, List.take_append_drop]
    have hlt : val (o.drop n) < 2 ^ (o.length - n) := by
      rw [← List.length_drop]; exact val_lt _
    have h1 : val o % 2 ^ (o.length - n) = val (o.drop n) := by
      rw [hv, Nat.mul_add_mod', Nat.mod_eq_of_lt hlt]
    have h2 : val o / 2 ^ (o.length - n) = val (o.take n) := by
      rw [hv, Nat.mul_comm, Nat.mul_add_div (by positivity), Nat.div_eq_of_lt hlt, Nat.add_zero]
    rw [h1, h2, ← List.length_drop] at h
    exact ih (by rw [List.length_drop]; omega) h

/-! ## The whole generator -/

/-- `k` of the first `W` words that the generator draws after `init_generator` has set the register to the binary digits
of `N`; `T` is the lookup table. -/
noncomputable def grainWords (T N ext blocks n W : Nat) (k : List Nat → Bool) : Bool :=
  extend ext N 80 1 fun N m =>
    Bool.rec (motive := fun _ => Bool) false
      (force (Nat.shiftRight N 240) fun N => extractB T blocks N 0 0 fun O c =>
        Bool.rec (motive := fun _ => Bool) false (wordsF n W O c k) (Nat.ble (n * W) c)) (Nat.ble (240 + 384 * blocks) m)

theorem words_length (n W : Nat) : ∀ o, (words n W o).length = W := by
  induction W with
  | zero => intro o; rfl
  | succ W ih => intro o; rw [words, List.length_cons, ih]

theorem grainWords_imp {T : Nat} (hT : T = table) {s : List Bool} (hs : s.length = 80) {N ext blocks n W : Nat} {k : List Nat → Bool}
    (hN : N = s.foldr (fun b x => 2 * x + b.toNat) 0) (h : grainWords T N ext blocks n W k = true) :
    ∃ s' ws, warmUp s = some s' ∧ Yields (grainRandomBits n) s' ws ∧ ws.length = W ∧ k ws = true := by
  obtain ⟨b, hb, rfl⟩ := exists_seq s hs
  have hP : Prefix b N 80 := by
    have gen : ∀ (m k i : Nat), (((List.range m).map fun j => b (k + j)).foldr (fun (b : Bool) x => 2 * x + b.toNat) 0).testBit i =
        (decide (i < m) && b (k + i)) := by
      intro m
      induction m with
      | zero => intro k i; simp
      | succ m ih =>
        intro k i
        rw [List.range_succ_eq_map, List.map_cons, List.foldr_cons, List.map_map]
        have e : ((fun j => b (k + j)) ∘ Nat.succ) = fun j => b (k + 1 + j) := by
          funext j; simp only [Function.comp, Nat.succ_eq_add_one]; congr 1; omega
        rw [e]
        generalize hx : ((List.range m).map fun j => b (k + 1 + j)).foldr (fun (b : Bool) x => 2 * x + b.toNat) 0 = x
        cases i with
        | zero =>
          rw [Nat.testBit_zero, Nat.add_zero]
          cases b k <;> simp
        | succ i =>
          rw [Nat.testBit_succ, show (2 * x + (b (k + 0)).toNat) / 2 = x by cases b (k + 0) <;> simp <;> omega, ← hx,
            ih (k + 1) i, show k + 1 + i = k + (i + 1) by omega]
          simp
    intro i
    rw [hN]
    exact (gen 80 0 i).trans (by rw [Nat.zero_add])
  subst hT
  rw [grainWords] at h
  obtain ⟨N', m', hP', h⟩ := extend_imp ext hP hb (by omega) h
  cases hble : Nat.ble (240 + 384 * blocks) m' with
  | false => rw [hble] at h; cases h
  | true =>
    rw [hble] at h
    simp only [force_eq] at h
    have hm := Nat.ble_eq.mp hble
    have h := extractB_imp table_entry blocks (o := []) (fun i => b (160 + 80 + i)) (fun i hi => by
      rw [show Nat.shiftRight N' 240 = N' >>> 240 from rfl, Nat.testBit_shiftRight, hP']
      simp [show 240 + i < m' by omega]) h
    rw [List.nil_append] at h
    generalize ho : outF (192 * blocks) (fun i => b (160 + 80 + i)) = o at h
    cases hc : Nat.ble (n * W) o.length with
    | false => rw [hc] at h; cases h
    | true =>
      rw [hc] at h
      have hc := Nat.ble_eq.mp hc
      have hk := wordsF_imp n W hc h
      have hy := yields_outF hb (192 * blocks) 160
      rw [ho] at hy
      refine ⟨win b 160, words n W o, warmUp_win hb, yields_words n W hy hc, words_length n W o, hk⟩

end ZkHash.Sage
