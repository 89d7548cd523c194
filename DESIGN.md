# Formal model of txaty/poseidon2 in Lean 4 - design

## Trusted base

* Lean 4.33.0's kernel and the Mathlib definitions used in statements (`Field`, `ZMod`, `Matrix`,
  `List`, `Function.Bijective`, ...).
* Axioms: only `propext`, `Classical.choice`, `Quot.sound` (printed by `#print axioms` at the end of the
  theorem files). No axioms of our own, no `sorry`, no `native_decide`/`bv_decide`. Finite tables (the shipped
  constants) are checked with `decide +kernel`, i.e. by the kernel.
* The reading of the Rust code: every model definition cites the lines it models. Nothing here runs the Rust.
* The instance tables under `Verif/Instances/` are generated by `tools/gen_instances.py` from the
  `from_hex("0x..")` literals of `/repo/src/*/*_instance_*.rs`; the script is trusted to copy them. So is `tools/gen_benches.py`, which writes
  the benchmark programs of `Model/Benches.lean` from `/repo/benches/*.rs`.
* The other generators (`tools/gen_primes.py`, `gen_mds.py`, `gen_minpoly.py`, `gen_grain_table.py`, `gen_script.py`,
  `gen_poseidon_script.py`, `gen_rounds.py`) write
  certificates that the kernel checks. They are not trusted.

### Modelled
`src/utils.rs` (all), `src/fields/utils.rs` (the three live functions), `src/fields/*.rs` (moduli, generators),
`src/poseidon2/{poseidon2,poseidon2_params}.rs` (all non-test code), `src/poseidon/{poseidon,poseidon_params}.rs`
(all non-test code), `src/gmimc/{gmimc,gmimc_params}.rs` (all), `src/neptune/{neptune,neptune_params}.rs` (all),
`src/merkle_tree/*.rs` (all four trees), every instance table and every `*_PARAMS` static, and of
`poseidon2_rust_params.sage` the reference functions `poseidon2`/`poseidon` and everything that
computes parameters (exponent, round numbers, constants, matrices, `calc_equivalent_*`), and what it prints. Not modelled of the script: the
unused function `print_linear_layer`, and what an aborted run has printed.
The printed constructor call has six arguments, the constructor of the crate also takes the internal matrix, which is printed too (C79 passes it). The randomized tests
(`consistent_perm`, `opt_equals_not_opt`, `matmul_equalities`) are modelled for C63, the known-answer tests are run on the
model in `Verif/Tests/Kats.lean`.

### Not modelled
* ark-ff's Montgomery arithmetic: a field element is an element of an arbitrary Lean `Field` (of `ZMod p` for the
  shipped instances); `inverse()` is `none` exactly on zero. `from_be_bytes_mod_order` is "big-endian integer mod p".
* `thread_rng`: a stream of field elements chosen by the environment; theorems quantify over all streams.
* `lazy_static` and the `Once` under it are modelled by their contract (C70): the first dereference runs the initializer,
  concurrent ones wait, a panic poisons; memory ordering is that of the contract. `Arc`/`Clone` (sharing), heap allocation, performance, `asm` feature, Criterion itself (what the benches call is C82). Sage's own algorithms (minimal polynomials, eigenspaces,
  subspaces) are Mathlib's mathematical notions, and its floating-point numbers are reals.
* The hash functions behind `Digest` (SHA-2, BLAKE2, ...) and the Sapling/Orchard compressions: parameters.
* Memory exhaustion, and the `capacity overflow` panic of `vec![_; n]` for absurd `n`. (`PoseidonParams::new` allocates
  `rounds_p` rows, so round numbers near `2^64` cannot get past it; Poseidon2 and Neptune allocate nothing of that size, see C66.)
  `usize` arithmetic on round numbers, indices and the power loop of the Merkle tree is modelled: `uadd`, `usub` wrap in
  release builds and panic in debug builds.

### Conventions
* A panic is `none` in `Option`; `&mut` functions return the new value; `Vec<F>` is `List F`;
  `Vec<Vec<F>>` is `List (List F)`; every index expression is a bounds-checked `l[i]?`.
* `dbg : Bool` is the cargo profile (debug assertions and overflow checks on/off).
* Loops are `List.foldlM` over the same ranges; `while nodes.len() > 1` is well-founded recursion; the script's unbounded
  `while` loops are `partial_fixpoint`s.

## Layout
* `Verif/Model/*` - the code, function by function. `Verif/Spec/*` - small independent specifications.
* `Verif/Proofs/*` - lemmas. `Verif/Theorems/*` - one file per topic with the property theorems `C01_...`,
  each followed by non-vacuity examples.
* `Verif/Instances/*` - generated tables. `Verif/Tests/*` - the known-answer tests of the repository (`fn kats`), evaluated
  on the model in the kernel (tests of the model, not proofs); generated by `tools/gen_kats.py`.

## Plan per property
| id | modelled | proof |
|---|---|---|
| C01,C03 | `permutation` with all layers, over any field | each imperative layer = matrix*vector (`ring` per row / `List.ofFn` extensionality); induction over the round loops |
| C02 | same | composition of self-maps of a finite type is bijective iff each factor is; `x^d` bijective iff coprime |
| C04,C05,C07 | panic paths | case analysis on the first failing layer, induction over rounds |
| C06 | two parameter sets | congruence through the loops |
| C08-C10 | tables, statics | shape facts and inverse certificates by `decide +kernel` over whole tables, lifted to `ZMod p`, then C01/C02 |
| C11 | `equivalent_round_constants` | induction on R_P, linearity, inverse from C27 |
| C12 | optimized and plain permutation, constructor | factorisation M = S_k * diag(1,Mhat_k), commuting diag(1,.) with the partial S-box, induction on R_P |
| C13,C14,C16 | plain permutation | as C01/C02; invertibility from C27 |
| C15,C18 | guards, profiles | computation with wrapped `usize` |
| C17 | tables | constructor success on the tables checked in the kernel |
| C19 | optimized GMiMC (accumulator queue) | loop invariant relating lazy and eager states |
| C20,C21 | GMiMC | each round invertible; induction |
| C22-C26 | Neptune | as C01/C02; explicit inverse of the S-box; explicit singular draw |
| C27-C29 | `mat_inverse` | loop invariants inv*A = m; determinants of leading blocks |
| C30,C31 | `mat_transpose`, products | extensionality |
| C32 | `from_hex` on byte strings | induction on digits |
| C33 | rejection loop | induction on the stream prefix |
| C34-C38,C41,C47 | trees | level-by-level pass = recursive tree, induction on depth |
| C39 | stateful digest | invariant over the call history |
| C40 | 64-bit loop | bit-length bounds |
| C42,C43 | `compress` | unfolding + C03 |
| C44,C45 | moduli | Lucas/Pratt certificates checked with kernel arithmetic |
| C46 | S-box chains | `ring` |
| C48,C49 | linear layers | kernel of the linear map |
| C50 | `poseidon` of the Sage script as a list program | both sides equal `Spec.poseidon` |
| C51 | `NeptuneParams::new` on a random stream | inversion of every draw; both directions |
| C52 | shipped Poseidon matrices, one full round | Cauchy certificates (x_i, y_j) checked in the kernel; a numerator polynomial has at most weight-1 roots |
| C53 | Poseidon2 external layer over the shipped fields | minors of M4; weight counting over the 4-element blocks |
| C54 | shipped Poseidon2 internal matrices, their powers up to 4t | Rabin's criterion on the algebra generated by the matrix: Frobenius powers and inverses computed in the kernel (`Proofs/MinpolyCheck`, `Proofs/Poseidon2Minpoly` generated by `tools/gen_minpoly.py`) |
| C55 | shipped GMiMC instances, any draws | C19, C20 on every declared shape |
| C56 | trees over shipped Poseidon, GMiMC and Neptune widths | C42 plus totality |
| C58 | fixed external matrices of Neptune | minors; weight counting on the two halves |
| C59 | partial rounds of the shipped Poseidon and Poseidon2 instances | rows e_0 M^j independent, by elimination in the kernel; rank-nullity; induction over the rounds |
| C57 | the script's bit generator, `generate_constants`, `generate_matrix_partial` with `check_minpoly_condition` and algorithms 1-3, unbounded loops as least fixed points | the generated bits satisfy a linear recurrence whose doubled form the kernel evaluates; every rejected diagonal has a certificate (a vector v and a polynomial q of degree < t with q(M)v = 0), the accepted one is C54; width 3 by Krylov vectors |
| C60 | `get_alpha`, `sat_inequiv_alpha` over the reals, the brute-force search with its reassigned loop variable | each ceiling of a logarithm replaced by an integer that satisfies two power inequalities; the search evaluated in the kernel, leaving a loop early when the cost can only grow |
| C61 | Python's `hex` and `zfill` on ASCII bytes, `to_hex` | digits base 16, then C32 |
| C62 | `calc_equivalent_matrices`, `calc_equivalent_constants` over Mathlib matrices, `inverse` failing on singular ones | both loops in closed form, as for the Rust functions (C12) |
| C63 | the randomized tests as programs over the stream of random elements (`Model/SelfTests`) | a run draws two different states; both directions of each equivalence by choosing the stream; C02, C11, C20, C27 for the shipped instances |
| C64 | the script for any prime and supported width | invariants of its loops (partial correctness of least fixed points); an irreducible minimal polynomial of degree t makes the matrix invertible; C01, C02, C48, C60 |
| C65 | `create_mds_p`, `generate_matrix` (unused by the script as shipped) after `generate_constants` without partial rounds | kernel evaluation as in C57; algorithms 1-3 from bases M^j e_0 and coordinates of their samples, whose leading minors the kernel computes; loop invariants and C52's Cauchy lemma for any field; C12, C14, C15 |
| C66 | `rounds_f + rounds_p`, `rounds_f_beginning + rounds_p` with 64-bit wrap (`uadd`) | the wrapped loops are those of a parameter set without partial rounds and with re-ordered rows; then C01 / C25; C05 and C25 have the debug case |
| C67 | states before each round of both permutations (`Spec/Trail.lean`: `Trail`, `activeIn`, `activeTotal`) | C52 / C53 on pairs of full rounds, C59 on blocks of `t` partial rounds, bijectivity (C08, C17) keeps the states different; S-box: a nonzero polynomial of degree `d - 1` |
| C68 | shapes of the instances; the formulas of the comments over the reals (`Spec/RoundFormulas.lean`) | each ceiling of a logarithm is reduced to two integer inequalities between powers, which the kernel evaluates for the 55 instances |
| C69 | `accumulate` of all four trees; what a verifier of a path computes (`Spec/MerklePath.lean`) | induction over the levels: a node with a value has children with values; a wrong value either meets the right node, which is a collision, or stays wrong one level up |
| C70 | `lazy_static` dereferences of any number of threads as a small-step machine (`Model/Statics.lean`), the statics of the crate with their dependencies and initializers | invariant over all interleavings (a ready cell never changes, each running cell is on exactly one thread's stack); deadlock freedom from a rank on the dependencies; termination from a decreasing weight; initializers by C08, C17, C55, C56 |
| C71 | the constructors that draw, and the permutations, for two processes whose draws differ in one constant (GMiMC) or one row (Neptune) | the value of the last round(s) as a function of that constant is a bijection; C19, C25, C51 |
| C72 | `round` followed by `rotate_right`, as in `permutation_not_opt` | a difference only rotates through rounds with equal S-box inputs; the first active round shifts all other words by the same nonzero amount, so the word that has come round is different |
| C73 | `external_round`, `internal_round` and `permutation` of Neptune, as in C25 | the pair S-box is a bijection (C24) and both blocks of the external matrix are MDS (C58), so a difference in either half of the pairs spreads; counting as in C67 |
| C74 | the permutations, compressions and `accumulate` as in C01, C12, C19, C25, C42, C34; constraint systems in `Spec/R1CS.lean` | closure of "has a system with m constraints and a unique witness" under affine maps, composition and products (`Proofs/R1CS.lean`), applied to the specifications |
| C75 | The model run on formal polynomials: `P.map C` is the parameter set with its scalars mapped into `MvPolynomial` or `Polynomial`; `FullRun`, `LineRun` (`Spec/Symbolic.lean`) relate that run to the run on field elements. (A statement that the results are the values of some polynomial of degree D would be empty for D at least the size of the field, as for the 64-bit and 31-bit fields.) | The specifications commute with ring homomorphisms (`Proofs/Symbolic.lean`), so evaluation takes the one run to the other; upper bounds by induction over rounds; exact degree by following the leading coefficients through the rounds and checking in the kernel, per instance, that the final ones are nonzero mod p. Poseidon: the plain form is run, whose values are those of the optimised form by C12. |
| C76 | `permutation` of Poseidon2 and the helpers of `utils.rs` and `mat_vec_mul`, on lists of any shape | padding to a well-shaped table and C01, C06; simulation of the elimination loops on rows with tails (`Proofs/Ragged.lean`); C27, C28, C30, C31 on the part that is read; panics at the first short row |
| C77 | The model and tree specification of C34, C38, C39. | Descend both trees from the common root: at each node the two pairs of children are equal or they are a collision; where the smaller tree has its leaves the larger one has inner nodes. The converse ascends. `padded` agrees on two sets iff the longer continues the shorter with its last leaf (`Theorems/MerkleBinding.lean`). |
| C78 | The model of C19, C25 run on polynomials as in C75; the degree sequence of width 4 in `Spec/Degree.lean`. | Restrict to a line and follow degree and leading coefficient of every word through the rounds. Width 8: the leading coefficients after the external rounds are integers which the kernel reduces modulo the shipped primes. Width 4: also follow the differences inside the two pairs and their sum, whose top terms cancel (`Proofs/DegreeExact.lean`, `Theorems/DegreeExact.lean`). |
| C79 | the main program of the script with every `print` (`Model/SageMain.lean`); a reader of the printed text (`Spec/ScriptText.lean`) | the reader consumes the rendered text token by token; printing by index groups the constants into rows; C61 turns literals into numbers, C64 and C60 do the rest |
| C80 | The model of C51 and C26; `afterZeros`, the drawn nonzero elements with the rejected zeros before each. | C51 and C26 reduce "bijection" to three determinants. The external one factors into the blocks, counted by Mathlib's order of the general linear group. The internal one is a nonzero polynomial of degree t in the drawn elements: Schwartz-Zippel. `afterZeros` is a bijection onto the accepted stretches (`Theorems/NeptuneCount.lean`). |
| C81 | The model of C12 to C15 on arbitrary lists of rows; `MatrixFits`, `PartialRowsFit` and `squarePart` (Spec/PoseidonTables.lean). | The matrix helpers of C76 reduce a ragged matrix to its square part. The loop that accumulates the constants is followed row by row, which gives the exact condition; with rows cut or padded to width t it is the loop of C12, so the partial rounds are those of a well-shaped parameter set without full rounds. The release counterexample holds over every field. |
| C82 | Programs as lists of calls on the shipped statics, run on the machine of C70 (`Model/Client.lean`); the benchmark programs as such lists, generated from `benches/*.rs` (`Model/Benches.lean`); `Call.Fits`, `returns` (Spec/Client.lean). | Every value a static can hold (C70) gives a permutation that returns exactly on its width and whose compression is its first word (C08, C17, C55, C42); legality and values of all calls follow from that, with C34 for trees. C70 gives agreement between threads and progress. The benchmark calls are checked to be legal. The theorems about whole programs are about programs of legal calls; C84 is about all programs. |
| C83 | Nothing new; `ManyActive` is the conclusion of C73 (Theorems/NeptuneWide.lean), `IsMDS` the one of C58. | A matrix has branch number k + 1 iff no minor is zero (`Branch.norm_iff_mds`); then the argument of C73. The count: a minor of order n vanishes for at most a fraction 1/(q-1) of the matrices (from the order of the general linear group), and there are C(2k,k) - 1 minors (Vandermonde's identity), two blocks. |
| C84 | Threads whose next call is a function of the results so far (`Model/World.lean`), on the machine of C70; a panicking call ends its thread. Programs that draw random numbers or talk to each other are in C98. | Simulation: after any schedule, the process is the one of C82 in which every thread runs the list of the calls it has made and is about to make (`Proofs/World.lean`: each earlier world is related, because its next call is the next one of that list). Then C70, C82; determinism by strong induction on the position in the sequence of calls; completion by counting the moves (C70's bound) against the rounds. |
| C85 | As C75; the draws as in C80 and C83. | The leading coefficients (`Degree.FullLead`) are polynomials in the entries of the blocks, of degree 1 + 4 + … + 4^r, not identically zero since they do not vanish for the blocks 2J and J (J the matrix of ones); Schwartz–Zippel (Mathlib) counts their zeros, a union bound over the words adds them up (`Proofs/NeptuneDegree.lean`). |
| C86 | `Model/SageExtra.lean`: `itertools.product` as a list, the search as `find?`; `"{0:#0{1}x}".format` and Python's way to print a list of strings. | `find?` and sortedness of the list of diagonals. Two equal diagonal entries give an eigenvector (pigeonhole above width 4); permuting the diagonal is a conjugation, which keeps minimal polynomials. The listing is read by a small reader of quoted pieces and `from_hex`. |
| C87 | The constructor on every stream of `rounds` elements; streams are functions `Fin rounds → F`, counted with `Nat.card`. | A difference of `d`-th powers of shifted arguments takes a value at most `d - 1` times (roots of a polynomial). If the last deciding S-box has equal inputs, one of the `t - 1` S-boxes before it cancelled a difference; each such event has at most `d - 1` values of one constant, whatever the others are. |
| C88 | The constructors on tables with the last row replaced. | The state before the last round does not depend on the replaced row; one S-box with different inputs and a nonzero matrix entry decide. |
| C89 | The Neptune constructor on streams with one stretch replaced. | Last external round as a function of the constants added before it: along the diagonal of a pair with different inputs the difference of outputs is linear, along its first word the degenerate case is. |
| C90 | The constructors on streams or tables whose last rounds vary. | Poseidon, Poseidon2: the last round is a bijection of its constants. Neptune: the last constants are added at the end. GMiMC: in two runs each round adds its gain to all words but one; if the last t rounds end in the same state, all gains are equal and t-1 times the gain is zero; injective on a finite set, so bijective; counted by splitting a draw. |
| C91 | `equivalent_round_constants` of both parameter types on arbitrary lists of rows. | The two loops are related by appending a row (simulation of the folds). Ragged tables are reduced to the square part of the matrix and to rows cut or padded to the width (lemmas of C81), then C11's recursion applies. The 1x1 case by a direct induction over the loop. |
| C92 | `equivalent_matrices` as a public function; specification of the sparse matrices in `Spec/SparseLayers.lean`. | The loop's matrices are identified with powers of the lower-right block by induction; the factorisation `D_k M = S_k D_(k+1)` moves the dense matrix past any function of the first entry, by induction over the rounds. |
| C93 | The three accumulators on concatenations and on changed sets; `Spec/MerkleAppend.lean` (`doubled`), paths of `Spec/MerklePath.lean`. | The recursive tree over the padded set splits at `2^k` into the trees of the two parts; the nodes beside a path do not contain the changed leaf, so the old siblings recombine with the new leaf to the new root, by induction over the path. |
| C94 | The four permutations and compressions, as functions on lists; counting of states. | The bijection on lists is turned into one of `Fin t -> F`; the states with given words are a product set; finite order of a permutation; pigeonhole. |
| C95 | the permutations as modelled, run on formal polynomials (C75) | substitution of affine functions keeps the total degree; a polynomial of total degree below k(q-1) sums to zero over F^k (Chevalley-Warning, Mathlib) |
| C96 | the permutations as modelled, run on formal polynomials in one word (C75, C78) | the exact degree bounds the number of roots; the difference at distance delta has degree D-1 by its Taylor coefficient, D being nonzero in the field |
| C97 | the permutations as modelled, run on formal polynomials along any line | the leading coefficients along v are those of the rounds without constants; before the partial rounds they are a bijective function of v, so their first word vanishes for p^(t-1) directions; otherwise the degree is exactly D on every parallel line, and the bound of C96 is added up over the parallel lines |
| C98 | threads with programs that see the log of the whole process and can draw (`Model/Net.lean`), on the machine of C70 | the invariants of C70 are kept by the programs' own actions; a log entry is the call on the value its static holds; a waiting thread waits for one inside an initializer that can move, and every such move makes the work left in initializers less; the segments of C70 stay apart from the positions of the draws |
| C99 | the permutations and compressions on inputs and on polynomials in one word (C75, C78) | along word 0 a result word is a polynomial of degree exactly D (C75, C78); composed with R it has degree m D, while g restricted to the line has smaller degree, so they agree at most m D times on each of the p^(t-1) lines |
