import json
P=[]
def p(id,title,statement,quantifier,why,anchors):
    P.append(dict(id=id,title=title,statement=statement,quantifier=quantifier,why_tests_cant=why,anchors=anchors))
P2="src/poseidon2/poseidon2.rs"; P2P="src/poseidon2/poseidon2_params.rs"; PO="src/poseidon/poseidon.rs"; POP="src/poseidon/poseidon_params.rs"
GM="src/gmimc/gmimc.rs"; GMP="src/gmimc/gmimc_params.rs"; NE="src/neptune/neptune.rs"; NEP="src/neptune/neptune_params.rs"
MT="src/merkle_tree/merkle_tree_fp.rs"; UT="src/utils.rs"; FU="src/fields/utils.rs"
p("C01","Poseidon2 permutation computes the published function",
"For every supported width t in {2,3,4,8,12,16,20,24}, every degree d in {3,5,7}, every number of full/partial rounds and all round constants and internal diagonals of the right shape, Poseidon2::permutation(x) returns exactly the Poseidon2 specification: M_E*x, then R_F/2 rounds x -> M_E*((x+c_r)^d), then R_P rounds x -> M_I*(x with x_0 replaced by (x_0+c_r[0])^d), then R_F/2 full rounds, where M_E is circ(2,1), circ(2,1,1), M4, or circ(2*M4,M4,..,M4) and M_I is the documented internal matrix.",
"all prime fields, supported widths, degrees, round numbers, constants and input states","Known-answer tests fix one instance and one input; the add-chain code has to equal the matrix for every state.",[P2+"::Poseidon2::permutation",P2+"::matmul_external",P2+"::matmul_m4",P2+"::matmul_internal",P2+"::sbox_p"])
p("C02","Poseidon2 permutation is a bijection exactly when its layers are",
"On a finite field with q elements and well-formed parameters, Poseidon2::permutation is a bijection on states of length t if and only if the external matrix is invertible, (there are no partial rounds or the internal matrix is invertible) and (there are no rounds or gcd(d,q-1)=1).",
"all finite fields, supported widths, degrees, round numbers, constants","Bijectivity is a statement about all pairs of inputs out of q^t; the repository's consistent_perm test samples five pairs.",[P2+"::Poseidon2::permutation"])
p("C03","Poseidon2 permutation never panics on well-formed parameters and keeps the width",
"With supported t, d in {3,5,7}, an even R_F, at least R_F+R_P rows of round constants of width >= t and an internal diagonal of length >= t, permutation on any input of length t returns (no panic) a vector of length t.",
"all well-formed parameter sets and all inputs of length t","Every index expression must be in range for every parameter set.",[P2+"::Poseidon2::permutation"])
p("C04","Poseidon2 rejects wrong input length and unsupported width",
"permutation panics whenever the input length differs from t, and whenever t is not in {2,3,4,8,12,16,20,24}, whatever the other parameters.",
"all parameter sets, all inputs","Quantifies over every unsupported width and every wrong length.",[P2+"::Poseidon2::permutation",P2+"::matmul_external"])
p("C05","Poseidon2 degree 11 is accepted by the constructor but unusable",
"Poseidon2Params::new panics exactly when d is not in {3,5,7,11}, rounds_f is odd, or (debug builds) rounds_f + rounds_p does not fit a usize; with d=11 (and a round number that it accepts) the constructor succeeds but, if there is at least one round, permutation panics on every input.",
"all constructor arguments, all inputs","Negative claim over all inputs and all parameter choices.",[P2P+"::Poseidon2Params::new",P2+"::sbox_p"])
p("C06","Poseidon2 output does not depend on the stored internal matrix, on partial-round constants beyond index 0, or (t=2,3) on the diagonal",
"Two parameter sets that agree on t, d, round numbers, full-round constants, first entries of the partial-round constants and (for t>=4) the diagonal give the same result (value or panic) on every input, whatever mat_internal, the tails of partial-round constants and, for t=2,3, the diagonal are.",
"all pairs of parameter sets, all inputs","Non-interference is a statement about all pairs of parameters.",[P2+"::Poseidon2::permutation",P2P+"::Poseidon2Params"])
p("C07","Poseidon2 short round-constant rows are never silently truncated into a result",
"If some full-round constant row that is reached has fewer than t entries, permutation panics on every input instead of returning a shorter or zero-padded state (this is what happens in the repository's own input_24_elements test).",
"all widths, round numbers, constants with a short row, inputs","zip silently truncates; that the following matrix layer always catches it is a claim over all shapes.",[P2+"::add_rc",P2+"::matmul_external",P2+"::poseidon2_tests_bn256::input_24_elements"])
p("C08","Every shipped Poseidon2 instance is a total bijection",
"For each of the 15 POSEIDON2_*_PARAMS statics (Goldilocks 8/12/16/20, BabyBear 16/24, BLS12 2/3/4/8, BN256 3, Pallas 3/4/8, Vesta 3) the permutation returns a value on every state of width t and is a bijection.",
"all 15 instances, all states over the instance's prime field","State spaces have 2^496 and more elements.",["src/poseidon2/poseidon2_instance_goldilocks.rs","src/poseidon2/poseidon2_instance_babybear.rs","src/poseidon2/poseidon2_instance_bls12.rs","src/poseidon2/poseidon2_instance_bn256.rs","src/poseidon2/poseidon2_instance_pallas.rs","src/poseidon2/poseidon2_instance_vesta.rs"])
p("C09","Shipped Poseidon2 internal matrix is what the code multiplies by",
"For each shipped instance the published MAT_INTERNAL table equals the matrix that the partial-round linear layer applies (all-ones plus diag(MAT_DIAG_M_1)), so multiplying by MAT_INTERNAL and running matmul_internal agree on every state.",
"all 15 instances, all states","The code never reads MAT_INTERNAL; agreement must hold for every state.",[P2+"::matmul_internal","src/poseidon2/poseidon2_instance_*.rs::MAT_INTERNAL*"])
p("C10","Shipped Poseidon2 instances agree with the reference script's function",
"For each shipped instance, permutation equals the reference function poseidon2() in poseidon2_rust_params.sage (which adds the whole round-constant row in partial rounds and multiplies by the published full matrices) on every state.",
"all 15 instances, all states","Two different algorithms must agree on every state.",["poseidon2_rust_params.sage::poseidon2",P2+"::Poseidon2::permutation"])
p("C11","Poseidon2 equivalent round constants are equivalent",
"For every invertible-by-elimination internal matrix and all constants, running the R_P partial rounds with the constants from Poseidon2Params::equivalent_round_constants (full first row before, one scalar after each S-box, final zero row) gives the same state as running them with the original full constant rows.",
"all fields, widths, matrices, constants, R_P>=1, states","Function is unused and untested in the repository.",[P2P+"::equivalent_round_constants"])
p("C12","Poseidon optimized permutation equals the plain one",
"Whenever PoseidonParams::new returns (does not panic) on a t x t matrix and at least R_F+R_P constant rows of width t, permutation and permutation_not_opt return the same state on every input.",
"all fields, widths t>=2, matrices, constants, round numbers, degrees and inputs","The equivalence moves matrices and constants through R_P rounds; the tests sample five inputs of shipped instances.",[PO+"::permutation",PO+"::permutation_not_opt",POP+"::equivalent_matrices",POP+"::equivalent_round_constants"])
p("C13","Poseidon plain permutation computes the published function",
"permutation_not_opt on well-formed parameters returns R_F/2 rounds x -> M*((x+c_r)^d), R_P rounds x -> M*(x+c_r with entry 0 raised to d), R_F/2 full rounds.",
"all fields, widths, matrices, constants, inputs","Equality with a specification over all inputs.",[PO+"::permutation_not_opt",PO+"::matmul"])
p("C14","Any Poseidon parameter set the constructor accepts gives a bijection iff the S-box is one",
"If PoseidonParams::new returns on well-shaped arguments over a field with q elements, then (permutation is a bijection on states of width t) iff gcd(d,q-1)=1: the constructor's own success certifies that the MDS matrix is invertible.",
"all finite fields, all accepted parameter sets","Statement about all pairs of states and all accepted parameters.",[POP+"::PoseidonParams::new",PO+"::permutation"])
p("C15","Poseidon constructor guards",
"PoseidonParams::new panics when d is not 3, 5 or 7, when mds.len() != t, when rounds_f is odd, when rounds_p = 0 (debug and release builds alike), when t <= 1, and when the MDS matrix is singular.",
"all arguments, both build profiles","Negative claims over all arguments, including wrap-around of usize in release builds.",[POP+"::PoseidonParams::new",POP+"::equivalent_round_constants",POP+"::equivalent_matrices"])
p("C16","Poseidon panics on wrong input length",
"permutation and permutation_not_opt panic whenever the input length differs from t.","all parameter sets and inputs","All lengths.",[PO+"::permutation",PO+"::permutation_not_opt"])
p("C17","Every shipped Poseidon instance is accepted, optimized = plain, and bijective",
"For each shipped POSEIDON_*_PARAMS static the constructor succeeds, permutation = permutation_not_opt on all states and the permutation is a bijection.",
"all 15 instances, all states","State spaces are astronomically large.",["src/poseidon/poseidon_instance_*.rs",POP+"::PoseidonParams::new"])
p("C18","Poseidon release builds silently zero-pad short constant rows",
"In a debug build a full-round constant row shorter than t makes permutation_not_opt panic; in a release build the state is truncated and the call still returns a full-width state, equal to running on the truncated state padded with zeros.",
"all widths, matrices, short rows, inputs","Behaviour differs between build profiles; tests run in one profile.",[PO+"::add_rc",PO+"::matmul"])
p("C19","GMiMC optimized permutation equals the plain one",
"For every t, every number of rounds, all round constants, every degree, permutation and permutation_not_opt give the same result (value or panic) on every input.",
"all fields, t, rounds >= 0, constants, inputs (including wrong lengths)","The optimized path is only used for t>=8 while the repository's opt_equals_not_opt tests use t=3 only.",[GM+"::permutation",GM+"::permutation_not_opt"])
p("C20","GMiMC is a bijection for every degree and every random constant",
"For every t>=1, rounds>=1, d in {3,5,7} and any drawn constants, permutation is a bijection on states of width t over any field - no coprimality condition.",
"all fields, widths, constants","Constants are drawn at random at start-up so no fixed instance exists to test.",[GM+"::permutation",GMP+"::GmimcParams::new"])
p("C21","GMiMC totality and guards",
"GmimcParams::new panics exactly when d is not in {3,5,7} and otherwise holds exactly `rounds` constants; permutation returns a state of width t for every input of length t>=1 when rounds>=1, panics for any other input length, and panics on every input when rounds=0 (both profiles).",
"all arguments, inputs, profiles","All-inputs claim including usize underflow.",[GM+"::permutation",GM+"::permutation_not_opt",GMP+"::GmimcParams::new"])
p("C22","Neptune fast external matrix equals the stored matrix",
"For parameters made by NeptuneParams::new with any even t and any random draws, the external layer (specialised additions for t=4 and t=8, strided loops otherwise) equals multiplication by the stored matrix m_e on every state, and m_e is zero exactly off the parity pattern for t=4,8.",
"all even widths, random draws, states","Tests sample five random states for t in {4,8,16...}.",[NE+"::external_matmul",NE+"::external_matmul_4",NE+"::external_matmul_8",NEP+"::instantiate_external_matrix",NEP+"::circ_mat"])
p("C23","Neptune internal layer is all-ones plus diagonal",
"The internal layer of Neptune equals multiplication by the matrix with ones off the diagonal and mu_i+1 on it, where mu_i+1 is the nonzero scalar drawn at construction.",
"all widths, draws, states","All states.",[NE+"::internal_matmul",NEP+"::instantiate_mu"])
p("C24","Neptune external S-box is a bijection iff 5 is nonzero",
"The two-branch quadratic S-box used in external rounds is a bijection on pairs over a field F if and only if 5 != 0 in F, whatever gamma was drawn.",
"all fields, all gamma, all pairs","All pairs of field elements.",[NE+"::external_sbox_prime"])
p("C25","Neptune permutation computes the published function",
"For well-formed parameters permutation(x) = M_E*x followed by R_F/2 external rounds, R_P internal rounds and R_F/2 external rounds, each round being S-box, matrix, add constants; it never panics on inputs of length t and returns length t; it panics for any other length.",
"all even widths, parameters, inputs","Equality with specification over all inputs.",[NE+"::permutation",NE+"::external_round",NE+"::internal_round"])
p("C26","Neptune is bijective exactly when its layers are - and construction does not ensure it",
"For t=4 and t=8 over a field with q elements of characteristic not 3, 5, 7, permutation is a bijection iff (R_P=0 or (gcd(d,q-1)=1 and the drawn internal matrix is invertible)); there are draws accepted by NeptuneParams::new for which the internal matrix is singular and the permutation is not injective.",
"all finite fields, draws","Constants are random; a singular draw is never sampled by tests.",[NEP+"::instantiate_mu",NE+"::permutation"])
p("C27","mat_inverse returns a two-sided inverse",
"Whenever mat_inverse returns on an n x n matrix the result is its two-sided inverse, n x n.",
"all fields, sizes, matrices","All matrices.",[UT+"::mat_inverse"])
p("C28","mat_inverse succeeds iff all leading principal minors are nonzero",
"On an n x n matrix (n>=1) mat_inverse returns iff every leading principal minor is nonzero; in particular it panics on every singular matrix and on some invertible matrices such as [[0,1],[1,0]] (no pivoting).",
"all fields, sizes, matrices","Exact success domain over all matrices.",[UT+"::mat_inverse"])
p("C29","mat_inverse: debug and release builds agree",
"On n x n matrices the debug-only writes and assertions never change the result nor add a panic.",
"all square matrices, both profiles","debug_assert must hold for all matrices.",[UT+"::mat_inverse"])
p("C30","mat_transpose transposes",
"On an r x c matrix (r>=1) mat_transpose returns the c x r matrix with entries swapped; applying it twice (c>=1) gives back the matrix; it panics on the empty matrix.",
"all shapes and entries","All shapes.",[UT+"::mat_transpose"])
p("C31","Matrix products of the parameter code are matrix products",
"mat_vec_mul and mat_mat_mul (both Poseidon variants) compute the matrix-vector and matrix-matrix product for all well-shaped arguments.",
"all sizes, entries","All entries.",[POP+"::mat_vec_mul",POP+"::mat_mat_mul",P2P+"::mat_vec_mul"])
p("C32","from_hex parses big-endian hex modulo p",
"from_hex on two arbitrary ASCII characters followed by an even number of hex digits (either case) returns the big-endian value of the digits modulo p; it panics iff the string has fewer than 2 bytes, byte 2 is not a character boundary, the number of remaining characters is odd or one of them is not a hex digit.",
"all strings, all moduli","All strings.",[FU+"::from_hex"])
p("C33","random_scalar_without_0 never returns zero and is the first nonzero draw",
"For every sequence of generator outputs, if the function returns, the value is nonzero and is the first nonzero output; it returns iff some output is nonzero.",
"all generator output sequences","Zero draws have probability 2^-255.",[FU+"::random_scalar_without_0"])
p("C34","Merkle root equals the recursive binary tree",
"For every nonempty leaf set and every compression function that returns, accumulate returns the root of the complete binary tree (recursively: hash of left-half root and right-half root) over the leaves padded to the next power of two (at least 2) with copies of the last leaf.",
"all leaf sets, all compression functions","All sizes.",[MT+"::accumulate"])
p("C35","Merkle accumulate panics on the empty set",
"accumulate on an empty slice panics in every profile and all four variants; on nonempty sets it never panics by itself (only if the compression function does).",
"all variants, compression functions","All compression functions and set sizes.",[MT+"::accumulate","src/merkle_tree/merkle_tree_f2.rs::accumulate","src/merkle_tree/merkle_tree_orchard.rs::accumulate","src/merkle_tree/merkle_tree_sapling.rs::accumulate"])
p("C36","Merkle root binds the padded leaves (collision reduction)",
"If two leaf sets with the same padded size have the same root then their padded leaf sequences are equal or there is an explicit collision of the compression function among the node pairs of the two trees; in particular for sets of equal length, different sets with equal roots yield a collision between the pairs compressed at one place of the two trees.",
"all pairs of leaf sets, all compression functions","Security reduction over all pairs of sets.",[MT+"::accumulate"])
p("C37","Merkle root does not bind the number of leaves",
"For every nonempty set whose size is not a power of two (or is one), appending a copy of the last leaf gives the same root; and the root over 2n>=4 leaves (n a power of two) equals the root over the n compressed pairs.",
"all such sets, all compression functions","Universal negative security property.",[MT+"::accumulate"])
p("C38","Sapling/Orchard trees pass the right level to every compression",
"In the level-indexed trees, the root equals the recursive tree in which the node at height h above the leaves is compressed with level h-1; the levels used are exactly 0..log2(padded size)-1; with a level-independent compression they agree with the field-element tree.",
"all leaf sets, all level-indexed compression functions","All sizes.",["src/merkle_tree/merkle_tree_orchard.rs::accumulate","src/merkle_tree/merkle_tree_sapling.rs::accumulate"])
p("C39","Digest-based tree: no state leaks between calls",
"For every history of accumulate calls on one digest-based tree, each call's result depends only on its own leaf set and equals the tree over H(left||right); the hasher is back in its initial state after each call.",
"all histories, leaf sets, digest implementations obeying the reset contract","All histories.",["src/merkle_tree/merkle_tree_f2.rs::compress","src/merkle_tree/merkle_tree_f2.rs::accumulate"])
p("C40","round_up_pow_n returns the least positive power and terminates on 64-bit usize",
"For every input <= 2^63, round_up_pow_n(input,2) terminates without overflow and returns the least power 2^k with k>=1 and 2^k >= input; hence accumulate's padded size is < 2*len for len>=2. For input > 2^63 it panics in debug and never terminates in release.",
"all usize values, both profiles","2^64 inputs.",[MT+"::round_up_pow_n"])
p("C41","Merkle accumulate makes exactly (padded size - 1) compressions",
"accumulate calls the compression function exactly bound-1 times, where bound is the padded size.",
"all sizes, compression functions","All sizes.",[MT+"::accumulate"])
p("C42","Merkle hashing with the permutations: 2-to-1 compression contract",
"compress of Poseidon, Poseidon2 and GMiMC is element 0 of permutation([a,b,0]) and of Neptune element 0 of permutation([a,b,0,0]); it uses only the first two inputs, panics on fewer than two, and panics on every input when t is not 3 (resp. 4).",
"all parameter sets, inputs","All inputs and widths.",[P2+"::compress",PO+"::compress",GM+"::compress",NE+"::compress"])
p("C43","Merkle trees over shipped t=3 instances are total",
"MerkleTree::accumulate over the shipped width-3 Poseidon2 instances (BLS12, BN256, Pallas, Vesta) returns a root for every nonempty leaf set; over a permutation of any other width it panics on every leaf set.",
"all leaf sets","All leaf sets.",[MT+"::accumulate",P2+"::compress"])
p("C44","Field moduli are prime and declared generators generate",
"Each of the six declared moduli is prime and the declared generator has multiplicative order p-1, so every nonzero element is invertible and a power of the generator.",
"all six fields, all nonzero elements","Quantifies over all field elements.",["src/fields/babybear.rs","src/fields/goldilocks.rs","src/fields/bls12.rs","src/fields/bn256.rs","src/fields/pallas.rs","src/fields/vesta.rs"])
p("C45","S-box degrees of shipped instances are permutation exponents",
"For every shipped instance (Poseidon, Poseidon2, Neptune, GMiMC) x -> x^d is a bijection of the instance's field.",
"all instances, all field elements","All field elements.",["src/poseidon2/poseidon2_instance_*.rs","src/poseidon/poseidon_instance_*.rs","src/neptune/neptune_instances.rs","src/gmimc/gmimc_instance_*.rs"])
p("C46","S-box code computes x^d",
"The add-and-multiply chains of the S-boxes in all four permutations compute x^d for d in {3,5,7} (with the round constant added first in GMiMC) and panic for other d.",
"all field elements, all d","All field elements.",[P2+"::sbox_p",PO+"::sbox_p",GM+"::sbox",NE+"::sbox_d"])
p("C47","Changing one leaf changes the root (unless a collision occurs between the two trees)",
"If the compression function gives different values to different pairs that are compressed at one place of the two trees, then two leaf sets of equal length with equal roots are equal; in particular writing another value to one leaf changes the root. The compression function may have collisions elsewhere (over a finite field it does, C94).",
"all leaf sets, all compression functions, all pairs of sets without such a collision","All pairs of sets.",[MT+"::accumulate"])
p("C48","External matrix invertibility per width",
"Poseidon2's external matrix over a field F is invertible iff: 3 != 0 (t=2), 2 != 0 (t=3 and t=4; det(M4) = -64), 2 != 0 and t/4+1 != 0 (t=8..24); hence it is invertible over all six shipped fields for all supported widths.",
"all fields, widths","All fields and states.",[P2+"::matmul_external"])
p("C49","Internal matrix invertibility criterion",
"For a diagonal without zero entries the internal layer (t>=4) is a bijection iff 1 + sum of 1/diag_i != 0; for t=2 iff 5 != 0; for t=3 iff 7 != 0.",
"all fields, widths, diagonals","All fields and states.",[P2+"::matmul_internal"])
p("C50","Shipped Poseidon instances equal the reference script",
"For every shipped Poseidon parameter set, constructing it succeeds and permutation(x) (the optimized code path) equals the poseidon function of poseidon2_rust_params.sage called with the published MDS matrix and round constants, for every state of width t.",
"all 15 shipped instances, all states, both build profiles","p^t states; the crate's tests use one state per instance.",[PO+"::permutation","src/poseidon/poseidon_params.rs::new","poseidon2_rust_params.sage::poseidon"])
p("C51","Neptune constructor: exactly which parameters come out of which random stream",
"NeptuneParams::new of an even width t returns a parameter set exactly when d is 3, 5 or 7, rounds_f is even and the random field elements are available; the elements drawn are, in order, the rounds*t round constants, the two t/2 x t/2 blocks of the external matrix (only when t is not 4 or 8), elements until t nonzero ones have been seen (mu_i is the i-th nonzero one minus 1), and gamma; the S-box constants are then alpha = beta = 1, gamma as drawn, and 1, 3, 4; nothing else is drawn.",
"all even widths, degrees, round counts and random streams","All random streams.",["src/neptune/neptune_params.rs::new","src/neptune/neptune_params.rs::instantiate_rc","src/neptune/neptune_params.rs::instantiate_mu","src/neptune/neptune_params.rs::instantiate_abc","src/neptune/neptune_params.rs::instantiate_external_matrix"])
p("C52","Shipped Poseidon matrices are MDS and give the maximal branch number",
"For every shipped Poseidon parameter set every square submatrix of the matrix is invertible; two different states differ in at least t+1 positions before and after the linear layer, counted together, and the same holds for every full round, so at least t+1 of the S-boxes of two consecutive full rounds are active.",
"all 15 shipped instances, all pairs of states, all rounds, both profiles","p^(2t) pairs of states, exponentially many submatrices.",[PO+"::matmul",PO+"::permutation_not_opt","src/poseidon/poseidon_instance_*.rs","poseidon2_rust_params.sage::create_mds_p"])
p("C53","Branch number of Poseidon2's external layer",
"Over every shipped field the external layer has branch number exactly t+1 for widths 2, 3 and 4 (the matrix is MDS) and exactly t/4 + 4 for widths 8, 12, 16, 20 and 24; every full round of every shipped instance inherits it.",
"all six fields, all supported widths, all pairs of states","p^(2t) pairs of states.",[P2+"::matmul_external",P2+"::matmul_m4"])
p("C54","Shipped Poseidon2 internal matrices admit no invariant subspaces",
"For every shipped Poseidon2 instance of width other than 3 and every i from 1 to 4t, i applications of the internal layer map no subspace other than the zero space and the whole space into itself; the i-th power of the internal matrix has an irreducible minimal polynomial of degree t, which the generating script demands of the diagonal for i up to 2t. At width 3 the internal layer fixes the vector (1, -1, 0) over every field.",
"11 instances, all exponents up to 4t, all subspaces","All subspaces of a p^t-element space.",[P2+"::matmul_internal","src/poseidon2/poseidon2_instance_*.rs","poseidon2_rust_params.sage::check_minpoly_condition"])
p("C55","Shipped GMiMC and Neptune instances work for every random draw",
"For every shipped GMiMC parameter set and every sequence of random constants the constructor returns and the permutation is a bijection that equals the unoptimized one; for every shipped Neptune parameter set and every draw the permutation is total on states of its width, and for widths 4 and 8 it is a bijection exactly when the drawn internal matrix is invertible.",
"all 43 GMiMC and 12 Neptune instances, all draws, all states","All random streams and states.",["src/gmimc/gmimc_instance_*.rs","src/neptune/neptune_instances.rs",GM+"::permutation",NE+"::permutation"])
p("C56","Merkle trees over shipped Poseidon, GMiMC and Neptune instances are total",
"MerkleTree::accumulate over a shipped width-3 Poseidon or GMiMC instance, or a shipped width-4 Neptune instance (whatever was drawn), returns a root for every nonempty leaf set.",
"all leaf sets, draws, both profiles","All leaf sets.",[MT+"::accumulate",PO+"::compress",GM+"::compress",NE+"::compress"])
p("C58","Neptune's fixed external matrices have MDS blocks",
"Over every shipped field the blocks of the external matrix of widths 4 and 8 (on the even and on the odd positions) are MDS, and the external layer has branch number at least t/2 + 1.",
"all six fields, all draws, all pairs of states","p^(2t) pairs of states.",[NE+"::external_matmul","src/neptune/neptune_params.rs::instantiate_external_matrix"])
p("C59","Differences that avoid the S-boxes of partial rounds",
"For every shipped Poseidon and Poseidon2 instance and every k <= t: in k consecutive partial rounds two states have the same S-box input every time exactly if their difference lies in a fixed subspace of dimension t-k. So in t consecutive partial rounds two different states always give some S-box different inputs; and for the two BabyBear Poseidon2 instances, whose partial rounds are fewer than t, different states exist that pass all partial rounds with equal S-box inputs.",
"30 instances, all window lengths and positions, all pairs of states","All pairs of states of a p^t-element space.",[P2+"::permutation",PO+"::permutation_not_opt","src/poseidon2/poseidon2_instance_*.rs","src/poseidon/poseidon_instance_*.rs"])
p("C57","The generating script returns exactly the shipped Poseidon2 tables",
"Run with the modulus, width and round numbers of any shipped Poseidon2 parameter set, poseidon2_rust_params.sage (its bit generator, its rejection of too large constants, its search for a diagonal that passes check_minpoly_condition and algorithms 1 to 3) terminates and returns exactly the shipped RC, MAT_INTERNAL and MAT_DIAG_M_1; so the shipped permutation is the script's poseidon2 on the script's own output, for every state of width t.",
"all 15 shipped instances, all states, an unbounded search","The search has no bound, its tests quantify over all subspaces and powers; p^t states.",["poseidon2_rust_params.sage::init_generator","poseidon2_rust_params.sage::generate_constants","poseidon2_rust_params.sage::generate_matrix_partial","src/poseidon2/poseidon2_instance_*.rs"])
p("C60","Exponents and round numbers of shipped Poseidon and Poseidon2 instances are the script's, meet its 128-bit inequalities and are optimal",
"For the modulus and width of every shipped Poseidon2 and Poseidon parameter set, get_alpha of poseidon2_rust_params.sage returns the shipped exponent (the least one from 3 on coprime to p-1), poseidon_calc_final_numbers_fixed(p, t, alpha, 128, True) returns the shipped round numbers, the number of S-boxes t R_F + R_P and, as the size, that number times the number of bits of p; the round numbers satisfy sat_inequiv_alpha for 128 bits. No even R_F and no R_P that satisfy sat_inequiv_alpha have fewer S-boxes after the security margin (R_F + 2, 1.075 R_P) is added. So the whole script, given only p and t, returns the shipped Poseidon2 parameter set.",
"all 30 shipped instances; optimality over all pairs of round numbers, without bound","The inequalities are over real logarithms; optimality quantifies over all pairs of naturals.",["poseidon2_rust_params.sage::get_alpha","poseidon2_rust_params.sage::find_FD_round_numbers","poseidon2_rust_params.sage::sat_inequiv_alpha","src/poseidon2/poseidon2_instance_*.rs","src/poseidon/poseidon_instance_*.rs"])
p("C61","What the script prints, from_hex reads back",
"For every modulus and every field element v < p, the text that to_hex of poseidon2_rust_params.sage prints for v is parsed by from_hex to v; all elements of a field are printed at the same, even width, and parsing into another field never panics but reduces the value. So printing and parsing a whole table returns the table.",
"all moduli, all field elements, tables of any size","Every element of fields with up to 2^255 elements, every modulus.",["poseidon2_rust_params.sage::to_hex","src/fields/utils.rs::from_hex"])
p("C62","The derived tables of Poseidon are the script's",
"Whenever PoseidonParams::new returns, calc_equivalent_matrices and calc_equivalent_constants of poseidon2_rust_params.sage return on the same matrix and constants, and the derived tables agree: m_i is the transpose of the script's M_i, v and w_hat are its collections, the first optimized row is its row of the first partial round, and each later optimized constant is the only nonzero entry of its row; the script changes no other row. The script computes its matrices exactly when the lower-right block is invertible, so it accepts matrices on which the crate's constructor panics.",
"all matrices and constants over all fields, all round numbers, both profiles","All matrices over all fields.",["src/poseidon/poseidon_params.rs::equivalent_matrices","src/poseidon/poseidon_params.rs::equivalent_round_constants","poseidon2_rust_params.sage::calc_equivalent_matrices","poseidon2_rust_params.sage::calc_equivalent_constants"])
p("C63","What the randomized tests establish, and which can fail",
"The randomized test consistent_perm of a hash module cannot fail, whatever the random generator delivers, exactly when every tested instance returns on all states of its width and maps different states to different results; opt_equals_not_opt exactly when both code paths return and agree on all states. For the shipped Poseidon2, Poseidon and GMiMC instances they never fail; for Neptune, consistent_perm can fail exactly when what was drawn gives no bijection (C26, C55 and C80 say which draws those are). Neptune's matmul_equalities at widths 4 and 8 never fails; at the widths with drawn matrices there are generator outputs on which it fails (a zero entry among the drawn ones); the test input_24_elements fails on every input.",
"all sequences of random field elements that the generator may deliver, all instance lists","A run of a randomized test settles one sequence of random elements; the claim is about all of them.",["src/poseidon2/poseidon2.rs::consistent_perm","src/poseidon/poseidon.rs::opt_equals_not_opt","src/gmimc/gmimc.rs::opt_equals_not_opt","src/neptune/neptune.rs::matmul_equalities","src/merkle_tree/merkle_tree_fp.rs"])
p("C64","The parameter script is sound for every prime and supported width",
"For every prime above 7 and every width that Poseidon2 supports: if poseidon2_rust_params.sage returns, then its constants are R_F+R_P rows of t numbers below the prime whose partial rows are 0 after the first number; its internal matrix is invertible and is the one that the crate's internal layer computes from the printed diagonal; and if the chosen exponent is at most 7, Poseidon2Params::new accepts the output, the permutation is a bijection, and it computes the script's reference function. With exponent 11 the constructor succeeds but every permutation call panics; with a larger exponent other than 11 the constructor panics.",
"all primes above 7, all supported widths, all round numbers","All primes; the search of the script depends on the field.",["poseidon2_rust_params.sage","src/poseidon2/poseidon2_params.rs::Poseidon2Params::new","src/poseidon2/poseidon2.rs::Poseidon2::permutation"])
p("C65","Shipped Poseidon tables are the generator's output, and every generated matrix is MDS",
"For the modulus, width and round numbers of every shipped Poseidon parameter set, the functions init_generator (with SBOX = 1), generate_constants (t constants in every round) and generate_matrix of poseidon2_rust_params.sage terminate and return exactly the shipped RC and MDS. Over any field and any width, whatever generate_matrix returns is MDS and passes algorithms 1 to 3. For any prime and round numbers, PoseidonParams::new accepts the generated tables exactly if the leading minors of the powers up to R_P of the lower-right block of the matrix do not vanish; then the optimized permutation computes the textbook permutation of the generated tables, and is a bijection if d is coprime to p-1.",
"all 15 shipped instances, an unbounded search; all fields, widths, generator states; all states","The search is unbounded and its tests quantify over all subspaces and powers; all fields and widths.",["poseidon2_rust_params.sage::create_mds_p","poseidon2_rust_params.sage::generate_matrix","poseidon2_rust_params.sage::generate_constants","src/poseidon/poseidon_instance_*.rs","src/poseidon/poseidon_params.rs::PoseidonParams::new"])
p("C66","Round numbers whose sum overflows",
"If rounds_f + rounds_p does not fit a usize, Poseidon2Params::new and NeptuneParams::new panic in debug builds. In release builds both sums wrap silently: if rounds_f/2 + rounds_p wraps, to w, the permutation runs no partial (internal) round at all - it is the permutation with rounds_f full rounds only, whose last rounds_f/2 rounds use the constant rows w .. w + rounds_f/2; if only rounds_f + rounds_p wraps, every call of the permutation panics. All other theorems on values carry the hypothesis that the sum fits.",
"all round numbers up to usize::MAX, all tables that a Vec can hold, all draws, all states, both profiles","Needs round numbers near 2^64 and both build profiles.",["src/poseidon2/poseidon2_params.rs::Poseidon2Params::new","src/poseidon2/poseidon2.rs::Poseidon2::permutation","src/neptune/neptune_params.rs::NeptuneParams::new","src/neptune/neptune.rs::Neptune::permutation"])
p("C67","S-boxes with different inputs over the whole permutation",
"For every shipped Poseidon2 and Poseidon instance and any two different inputs: the number of S-boxes, counted over all rounds of the permutation, that receive different inputs is at least 2*((rb/2)*B + rb%2) + rounds_p/t, where rb = rounds_f/2 and B = t+1 (Poseidon, and Poseidon2 up to width 4) or t/4+4 (Poseidon2 from width 8). One S-box of degree d maps inputs that differ by a nonzero a to outputs that differ by b for at most d-1 inputs, over every field whose characteristic does not divide d, in particular over all declared fields.",
"all 30 instances, all pairs of inputs; all fields, all input and output differences","p^(2t) pairs of inputs; all fields.",[P2+"::permutation",PO+"::permutation",P2+"::sbox_p",PO+"::sbox_p","src/poseidon2/poseidon2_instance_*.rs","src/poseidon/poseidon_instance_*.rs"])
p("C68","Shipped round numbers against their documented formulas",
"The number of rounds of every shipped GMiMC instance is max(2+2(t+t^2), ceil(2 log_d p)+2t), the formula in the comments, except that the 15 instances of width at most 9 over BN256, Pallas and Vesta have exactly one round more. The number of internal rounds of every shipped Neptune instance is ceil(1.125*ceil(log_d 2*(min(kappa,log_2 p)-6)+3+t+log_d t)) for kappa=128, except that the BN256 and Vesta instances have exactly one round less; for kappa=127 no instance has fewer rounds than the formula. Logarithms and ceilings are those of the real numbers.",
"all 43 GMiMC and 12 Neptune instances","The formulas are real-valued and stand in comments only; no test computes them, and floating point cannot settle a ceiling.",["src/gmimc/gmimc_instance_*.rs","src/neptune/neptune_instances.rs"])
p("C69","Authentication paths against a root",
"If accumulate returns a root, every leaf of the padded set opens to it: recombining the leaf with the sibling nodes on its way, left or right according to the bits of its position, gives the root. Conversely, a path with as many siblings as the tree has levels that opens a position to a value other than the leaf there exhibits a collision: at some level the pair that the tree compresses on the way of this leaf and the pair that the verifier compresses are different and have the same compression. The same holds for the Orchard and Sapling trees, at one level, and for the digest tree. The length has to be checked: a path shorter by one opens the root to an inner node.",
"all leaf sets up to 2^63 leaves, all compression functions, all positions, all claimed values and paths, both profiles","All leaf sets, all forged paths.",[MT+"::MerkleTree::accumulate","src/merkle_tree/merkle_tree_orchard.rs","src/merkle_tree/merkle_tree_sapling.rs","src/merkle_tree/merkle_tree_f2.rs"])
p("C70","Global instances under concurrent first use",
"The parameter sets and tables are global statics that the first dereference initializes, in whatever thread it happens, and initializers dereference other statics. For any number of threads, any programs of dereferences and every interleaving: all threads that ever get a reference to a static see the same value, now and later; every thread gets its references in program order; the total number of steps is bounded, so no execution goes on forever; and for the statics of this crate, if the random generator of each thread never runs dry, no initializer panics, no static is poisoned and no deadlock occurs: while some thread still waits for a reference, some thread can move, and when none can move every thread has got everything. The values are the ones the theorems on instances speak about: the tables of the file for Poseidon and Poseidon2, the result of the constructor on a segment of one thread's random stream for GMiMC and Neptune, and no random element is used for two parameter sets. If an initializer did panic, its static would stay unusable for ever.",
"all numbers of threads, all programs, all interleavings of their steps, all random streams","Interleavings of initializers are exponentially many and depend on the scheduler; tests run with whatever schedule occurs.",["src/poseidon2/poseidon2_instance_*.rs","src/poseidon/poseidon_instance_*.rs","src/gmimc/gmimc_instance_*.rs","src/neptune/neptune_instances.rs"])
p("C71","GMiMC and Neptune results are not reproducible across processes",
"The constants of the shipped GMiMC and Neptune parameter sets are drawn from the thread's random generator when the process first uses them. For every input and every field element v there is a value of one of the drawn constants, all other draws unchanged, with which GMiMC's result has first word v; so the 2-to-1 compression of any two leaves can be any field element. For Neptune, for every input and every state y there is a value of the last drawn row of constants with which the permutation maps the input to y. A hash computed in one process cannot be checked in another one. Counted for GMiMC: of all pairs of draws of two processes exactly one in q^t makes them agree on a given input, and exactly one in q on the digest of two given elements.",
"all 43 GMiMC and 12 Neptune instances, all draws, all inputs, all target values","A test runs in one process; the claim relates the results for all draws.",["src/gmimc/gmimc_params.rs::instantiate_rc","src/neptune/neptune_params.rs::instantiate_rc","src/gmimc/gmimc_instance_*.rs","src/neptune/neptune_instances.rs",GM+"::permutation",NE+"::permutation"])
p("C72","S-boxes with different inputs in GMiMC",
"For every shipped GMiMC parameter set, whatever constants were drawn, and any two different inputs of its width: any t+1 consecutive rounds contain at least two rounds whose S-box gets different inputs in the two computations, so over the whole permutation there are at least 2*floor(rounds/(t+1)) of them (112 at width 3).",
"all 43 instances, all draws, all pairs of different inputs, all windows of rounds","p^(2t) pairs of inputs times all draws.",[GM+"::round",GM+"::sbox",GM+"::permutation","src/gmimc/gmimc_instance_*.rs"])
p("C73","S-boxes with different inputs in Neptune",
"For every shipped Neptune parameter set of width t = 4 or 8, whatever was drawn, and two different inputs: if the states before an external round that is followed by a round differ, at least t/2+1 of the pair S-boxes (positions 2i, 2i+1) of that round and pairs of the next state differ; so the external rounds at the beginning contain at least (rb/2)*(t/2+1) + rb%2 S-boxes with different inputs (rb of them; 4 at width 4, 6 at width 8), and the external rounds at the end just as many if the two results are different.",
"all 7 shipped shapes of widths 4 and 8, all draws, all pairs of different inputs","p^(2t) pairs of inputs times all draws.",[NE+"::external_round",NE+"::external_sbox",NE+"::external_matmul",NE+"::permutation","src/neptune/neptune_instances.rs"])
p("C74","Each function is a small constraint system that depends on the parameters only",
"For every well-shaped parameter set there is one rank-one constraint system (each constraint: product of two affine forms of the variables equals a third), fixed by the parameters, whose solutions are exactly the runs of the function: for every input, the words the function returns together with exactly one assignment of the auxiliary variables satisfy it, and no other words do. It has mulCost(d) constraints for every S-box (2, 3, 4 for d = 3, 5, 7) and none for the linear layers: mulCost(d)*(t*rounds_f + rounds_p) for Poseidon and Poseidon2, mulCost(d)*rounds for GMiMC, and the corresponding count for Neptune. The optimized and the plain functions have the same system. The 2-to-1 compressions and the root over n leaves are such systems too, with the count times the number of compressions.",
"all parameter sets a constructor returns and all inputs; every shipped instance as a concrete case","Soundness of a circuit is a statement about all assignments; a test can only show that some honest runs satisfy it.",[P2+"::permutation",PO+"::permutation",PO+"::permutation_not_opt",GM+"::permutation",NE+"::permutation",MT+"::MerkleTreeHash::compress",MT+"::MerkleTree::accumulate"])
p("C75","Algebraic degree",
"The permutations only add and multiply, so they can be run on formal polynomials. Run on one variable per input word they return fixed polynomials whose values are the results for all inputs, of total degree at most d to the number of rounds (Neptune: 4 for each external round and d for each internal round; Poseidon: the polynomials of its plain form). For every shipped Poseidon and Poseidon2 instance this is exact in every direction: with all words of the input fixed except any one, which is the variable, the run returns polynomials of degree exactly d^(rounds_f+rounds_p) in every word; and a polynomial of smaller degree gives the right result for at most d^(rounds_f+rounds_p) values of that word (fewer than the field has elements for the 9 instances over the 254- and 255-bit fields; over Goldilocks and BabyBear the degree is that of the formal polynomial only).",
"all parameter sets and all inputs (upper bounds); all 15+15 shipped instances, all inputs, all pairs of input and output words (exact degree)","A degree is a statement about the values at all inputs; dropping a round or an S-box lowers it without being visible on a sample.",[P2+"::permutation",PO+"::permutation",PO+"::permutation_not_opt",GM+"::permutation",NE+"::permutation","src/poseidon2/poseidon2_instance_*.rs","src/poseidon/poseidon_instance_*.rs"])
p("C76","Tables and matrices of any shape",
"For whatever tables the Poseidon2 constructor was given, a call returns exactly if the input has length t, the width is supported, the degree is not 11 (or there is no round), every row of a full round has at least t entries, every row of a partial round at least one, and the diagonal has at least t entries if it is read; the result is then the published function with these constants, surplus entries ignored. mat_inverse, mat_transpose and mat_vec_mul, given any list of rows, return exactly if no row is too short (and, for mat_inverse, the first row has the right length and the leading minors of the square part are nonzero), and return the inverse, transpose or product of the part they read. Debug and release builds of mat_inverse differ exactly on matrices with a nonzero entry beyond the square part, which only debug builds reject.",
"all tables, diagonals, matrices and vectors of any (ragged) shape, all inputs, both profiles","The shapes are unboundedly many; tests only use rectangular tables.",[P2+"::permutation",P2P+"::new",UT+"::mat_inverse",UT+"::mat_transpose",P2P+"::mat_vec_mul"])
p("C77","Exactly which leaf sets share a Merkle root",
"If two leaf sets have the same root, then the padded leaves of the one with the smaller tree are the inner nodes of the other tree at the height that is the difference of the depths, or the compression function has a collision between the pairs that are compressed at one place, counted from the root, of the two trees; conversely every such pair of sets has the same root. Among sets of one depth this means: the longer set is the shorter one continued with copies of its last leaf. In the level-indexed trees two sets of one depth with one root have the same padded leaves or give a collision within one level, and two sets of different depths with one root give a collision between two different levels. In the digest tree one root for two sets of one depth gives the same padded leaves or a hash collision.",
"all pairs of leaf sets of any sizes, all compression functions, all digests obeying the reset contract, both profiles","Security reduction over all pairs of sets of different sizes; tests compare a few roots.",[MT+"::accumulate","src/merkle_tree/merkle_tree_orchard.rs::accumulate","src/merkle_tree/merkle_tree_sapling.rs::accumulate","src/merkle_tree/merkle_tree_f2.rs::accumulate"])
p("C78","Exact degrees of GMiMC and Neptune",
"Let the permutation be run on polynomials, all words of the input being fixed except word j, which is the variable. GMiMC: every word of the result is a monic polynomial, of degree d^m with m the number of rounds from the first one whose S-box gets word j (d^(m-1) for word 0 of the result). Neptune of width 8 as shipped: degree exactly 4^rounds_f * d^rounds_p in each input word. Neptune of width 4: degree exactly w(rounds_f/2)^2 * d^rounds_p with w = 1, 4, 16, 56, 200, ... (w(r+3) = 3 w(r+2) + 2 w(r+1)), in each single input word and in total, which from three external rounds per end on is less than the 4^rounds_f a count of the multiplications suggests. The exact Neptune degrees exclude the draw whose first diagonal entry is 0.",
"all GMiMC parameter sets with at least two words and enough rounds, all Neptune parameter sets of width 4 over fields of characteristic other than 2, 3, 5, the 3 shipped shapes of width 8; all draws, all inputs, all pairs of input and output words","A degree is a statement about the values at all inputs and all drawn constants.",[GM+"::permutation",GM+"::round",GM+"::sbox",NE+"::permutation",NE+"::external_sbox_prime",NE+"::external_matmul",NE+"::internal_matmul","src/neptune/neptune_instances.rs","src/gmimc/gmimc_instance_*.rs"])
p("C79","The program that the parameter script prints",
"For every prime above 7 and every supported width for which the script chooses an exponent of at most 7: if the script runs to its end, then its whole output is a well-formed program text: the tables read from it by from_hex, together with the numbers in the printed constructor call, are accepted by the crate's Poseidon2 constructor, the permutation built from them is a bijection, and it maps the first printed state (0, 1, ..., t-1) to the second. Run with modulus and width of a shipped instance, the script runs to its end and the printed tables, degree and round numbers are those of the instance.",
"all primes above 7, all supported widths, all complete runs, both profiles; the 15 shipped instances as concrete cases","The text depends on all numbers drawn; a test of the printed vector covers one prime and width.",["poseidon2_rust_params.sage (lines 110, 634-713)",P2P+"::new",P2+"::permutation",FU+"::from_hex"])
p("C80","Almost every draw of Neptune parameters gives a bijection",
"Fix what the Neptune constructor draws for the round constants and gamma, and the positions of the zeros it throws away while drawing the diagonal. Widths 4 and 8: among all choices of the t nonzero elements drawn for the diagonal, at most a fraction t/(q-1) gives a permutation that is not a bijection. Other even widths 2k, where the two blocks of the external matrix are drawn too: the number of choices that give a bijection is the square of the number of invertible k x k matrices, prod_{i<k} (q^k - q^i), times the number of diagonals with an invertible internal matrix, and at most a fraction (2k+2)/(q-1) of the choices gives no bijection. Every successful stretch of draws is of the counted form in exactly one way.",
"all finite fields of q elements in which the S-box exponent is coprime to q-1 and 3, 5, 7 are nonzero, all even widths, all even rounds_f, all positive rounds_p, all other draws, both profiles; all shipped shapes as concrete cases","The claim counts all possible outputs of a random generator; a test sees one draw.",[NEP+"::new",NEP+"::instantiate_mu",NEP+"::instantiate_external_matrix",NE+"::permutation","src/neptune/neptune_instances.rs"])
p("C81","Poseidon with tables of any shape",
"For any list of matrix rows and any list of rows of constants (rows may be missing, too short or too long), the Poseidon constructor for a width of at least 2 (below that it always panics) returns exactly if: the degree is 3, 5 or 7; the number of full rounds is even; there is a partial round; the matrix has t rows, the first of t entries, the others of at least t (surplus entries being zero in debug builds); the leading minors of its square part and of the first rounds_p powers of the lower-right block are nonzero; and the rows of the partial rounds exist and, if there are several, the first has at least t entries, the middle ones exactly t and the last at most t (exactly t in debug builds). If no partial-round row is shorter than the state, the optimized and the plain permutation agree on every input in both profiles; in a debug build they agree for every table the constructor accepts. In a release build a short last row is accepted and the two functions then differ: the optimized one takes a missing constant as zero, the plain one loses the state position. If every round has a row of at least t constants, both compute Poseidon with the square part of the matrix, and surplus entries have no effect. mat_mat_mul returns exactly if every row of either factor is at least as long as the other factor has rows, and returns the product of the parts it reads.",
"all fields, widths, degrees, round numbers whose sum is a usize, matrix tables, constant tables, inputs of any length, both profiles",
"Unit tests use only well-formed tables of a few instances; the claim is about every ragged table, every field and every input.",
[POP+"::new",POP+"::equivalent_matrices",POP+"::equivalent_round_constants",POP+"::mat_mat_mul",PO+"::permutation",PO+"::permutation_not_opt",UT+"::mat_inverse",UT+"::mat_transpose",UT+"::mat_vec_mul"])
p("C82","Programs that use the shipped parameter sets from many threads, and the benchmark programs",
"Any number of threads use the shipped parameter sets (construct permutations over them, permute, permute unoptimized, compress, build Merkle trees of at most 2^63 leaves). A call returns exactly if it is legal: input of the set's width for a permutation, at least two elements for a compression and at least one leaf for a tree, both only at width 3 (Neptune: 4). If all calls are legal and the random generators keep delivering nonzero elements, then under every interleaving no thread panics, none blocks for ever and all calls return. Within a process, at every moment there is one map of states per parameter set that all calls on it have followed, whichever thread made them; the optimized and the plain permutation agree. For Poseidon and Poseidon2 that map is the published function, so results agree between processes and build profiles. Every benchmark program of the repository runs through without a panic, for whatever numbers of iterations, and its repetitions return the same.",
"all programs of any number of threads, all interleavings, all values drawn, both profiles; all benchmark programs and all iteration counts",
"Interleavings and drawn parameters are unboundedly many; the tests use one thread per parameter set and the benchmarks check no results.",
[P2+"::new",P2+"::permutation",PO+"::permutation",PO+"::permutation_not_opt",GM+"::permutation",GM+"::permutation_not_opt",NE+"::permutation",MT+"::MerkleTree::accumulate",MT+"::MerkleTreeHash::compress","benches/*.rs"])
p("C83","S-boxes with different inputs in Neptune of any width",
"The bounds of C73 hold for Neptune parameters of any width over any field with 5 nonzero, however they were drawn, if no minor of the two blocks of the external matrix (on the even and on the odd positions) is zero; for the bound on a single external layer this condition is exact: at least t/2+1 pairs differ before and after it, for all pairs of different states, if and only if no minor is zero. The widths other than 4 and 8 draw these blocks without testing them. Whatever else was drawn, at most a fraction 2*(C(t,t/2)-1)/(p-1) of the draws of the blocks gives parameters for which the bounds fail: for the shipped sets less than 1 in 10^13 over Goldilocks and, over BabyBear, at most 1 in 78221 at width 16 and 1 in 372 at width 24.",
"all widths, fields, draws and pairs of different inputs; the 5 shipped shapes of widths other than 4 and 8 as concrete cases","p^(2t) pairs of inputs times p^(t*t/2) matrices; a bad matrix is too rare for a test to draw one and looks like any other.",[NEP+"::new",NEP+"::instantiate_external_matrix",NE+"::external_matmul",NE+"::permutation","src/neptune/neptune_instances.rs"])
p("C84","Programs that react to results, with illegal calls",
"Any number of threads run arbitrary deterministic programs over the shipped parameter sets: which permutation, compression or tree is asked for next may depend on all earlier results of the thread, and some calls may be illegal (wrong input length, wrong width for a tree, no leaves). Under every schedule: a call panics exactly if it is illegal, whatever happened before and in other threads; it ends its own thread and nothing else; nobody is ever blocked for good, and if every program makes boundedly many calls, every fair schedule of bounded length completes them all; equal calls give equal results in all threads, and every result is that of one function per parameter set, the published Poseidon or Poseidon2 for their sets. A program that uses Poseidon and Poseidon2 only makes the same calls and gets the same results in every process, profile and schedule.",
"all programs (functions from earlier results to the next call), numbers of threads, schedules, generators that do not run dry, both profiles","Programs that react to results and their interleavings are an infinite set; a race or a dependence on an earlier panic shows up on rare schedules only.",["src/*/*_instance*.rs",P2+"::permutation",PO+"::permutation",GM+"::permutation",NE+"::permutation",MT+"::MerkleTree::accumulate"])
p("C85","Degree of Neptune with drawn matrices",
"Neptune of a width other than 4 and 8, whose external matrix is drawn: run on polynomials, all words of the input being fixed except any one, which is the variable, the permutation returns polynomials of degree exactly 4^rounds_f * d^rounds_p in every word, the largest possible, for all but few draws. Unless the first diagonal entry is 0, and with everything else that is drawn fixed, at most a fraction t (w(r) + w(r-1)) / q of the pairs of blocks of the external matrix gives less for some pair of words (r = rounds_f/2, w(r) = 1 + 4 + ... + 4^r); for the shipped shapes this is 106 t / p, below 1/790000.",
"all finite fields of q elements in which 2 and t/2 are nonzero, all even widths other than 4 and 8, all positive round numbers, all other draws, all inputs, all pairs of input and output words, both profiles; all shipped shapes as concrete cases","The claim counts all possible outputs of a random generator and is about the values at all inputs.",[NEP+"::new",NEP+"::instantiate_external_matrix",NE+"::permutation",NE+"::external_sbox_prime","src/neptune/neptune_instances.rs"])
p("C86","The script's search for a small internal matrix, and its listing of the constants",
"The function generate_matrix_partial_small_entries of poseidon2_rust_params.sage (defined, not called) tries the diagonals with entries 2 to 5. It returns a matrix exactly if for one of these diagonals the matrix is invertible and its powers up to 2t have irreducible minimal polynomials of full degree, and then the first one in dictionary order; no subspace but the trivial ones is mapped into itself by the matrix or these powers. For every width above 4 it tries all diagonals and finds nothing, over every prime field. For width 4 it returns the matrix with diagonal 2, 3, 4, 5 if that passes and nothing otherwise, and a matrix it returns makes Poseidon2 a bijection. The function print_round_constants (call commented out) prints the number of constants, the kind of field and a list in brackets, and lists the constants so that from_hex reads every one back if the modulus has an even number of hexadecimal digits, and panics on every one if that number is odd.",
"all prime fields, all widths, all constants and exponents; all tables of constants","All fields and widths; the number of diagonals is 4^t and the tests quantify over all subspaces and powers.",["poseidon2_rust_params.sage::generate_matrix_partial_small_entries","poseidon2_rust_params.sage::check_minpoly_condition","poseidon2_rust_params.sage::print_round_constants","src/fields/utils.rs::from_hex"])
p("C87","Almost every draw of GMiMC constants separates two given inputs",
"Fix two different inputs of the width t (at least 2), a word and a value v. Among the q^rounds sequences of constants that the random generator can deliver to the GMiMC constructor (with d nonzero in the field and more rounds than words), all but a fraction of at most t(d-1)/q give parameters for which the permutation returns on both inputs and the results differ in that word by something else than v. With v = 0: the results differ in that word. For Merkle compression (width 3): two different pairs of elements have the same digest for at most a fraction 3(d-1)/q of the draws, less than one in 2^250 for the shipped sets of width 3.",
"all finite fields of q elements with d nonzero, all widths from 2, all numbers of rounds above the width, all pairs of different inputs, words and differences, all draws, both profiles; all shipped shapes as concrete cases","The claim counts all possible outputs of a random generator, for all pairs of inputs.",[GMP+"::new",GM+"::permutation",GM+"::compress","src/gmimc/gmimc_instance_*.rs"])
p("C88","The constants of the last round of Poseidon and Poseidon2 almost always separate two given inputs",
"Fix constructor arguments of the right shape and two inputs on which the permutation gives different results (for a bijection: any two different inputs), a word and a value v, and let only the t constants of the last round vary over all q^t values. The constructor accepts all of them, and for all but a fraction of at most (d-1)/q of them the results on the two inputs differ in that word by something else than v: Poseidon2 with at least two full rounds in a field where d, 2, 3, 5 and 7 are nonzero; Poseidon, optimized and plain, with at least two full rounds and a matrix without zero in that row, as every MDS matrix. All shipped parameter sets of both qualify. In particular, at width 3, at most that fraction gives two different pairs of elements the same digest.",
"all finite fields of q elements, all widths, round numbers and other constants, all pairs of inputs, words and differences, both profiles; all 30 shipped parameter sets as concrete cases","The claim counts all values of t constants, for all pairs of inputs.",[P2P+"::new",P2+"::permutation",POP+"::new",PO+"::permutation",PO+"::permutation_not_opt"])
p("C89","The constants of the last round but one of Neptune almost always separate two given inputs",
"Fix what the generator delivers to the Neptune constructor, and two inputs on which the permutation gives different results, a word and a value v; let only the t elements that become the constants of the last round but one vary over all q^t values. The constructor accepts all of them, and for all but a fraction of at most 2/q of them the results on the two inputs differ in that word by something else than v, if the row of that word in the external matrix has no zero in the columns of its own parity. For widths 4 and 8 it has none; in particular, at width 4, at most that fraction gives two different pairs of elements the same digest.",
"all finite fields of q elements and odd characteristic, all even widths, round numbers with at least two external rounds, all other draws, all pairs of inputs, words and differences, both profiles; the shipped shapes of widths 4 and 8 as concrete cases","The claim counts all values of t drawn constants, for all pairs of inputs.",[NEP+"::new",NE+"::permutation",NE+"::external_sbox_prime","src/neptune/neptune_instances.rs"])
p("C90","Every output is reached by equally many constants",
"Fix an input and an output state. GMiMC: if x^d is a bijection of the field and t-1 is not zero in it, then whatever the generator delivers for all but the last t rounds, exactly one delivery for the last t rounds gives parameters that send the input to the output; so of all q^rounds deliveries exactly q^(rounds-t) do, and exactly 1/q of all deliveries give a chosen word of the result, or the digest of a two-element compression, a chosen value. Poseidon and Poseidon2: if the parameters give a bijection (and have two full rounds or more), exactly one row of constants in the place of the last round's does. Neptune: exactly one choice of the t elements that become the constants of the last round does, whether the permutation is a bijection or not. So in these three too exactly 1/q of the choices give a word of the result, or the digest of two given elements, a chosen value. The shipped sets of GMiMC, Poseidon and Poseidon2 meet the conditions.",
"all finite fields of q elements with the stated conditions, all widths and round numbers, all other constants, all pairs of an input and an output, both profiles; the shipped sets as concrete cases","The claim counts all values of the constants, q^rounds of them, for every input and output.",[GMP+"::new",GM+"::permutation",GM+"::compress",P2P+"::new",P2+"::permutation",P2+"::compress",POP+"::new",PO+"::permutation",PO+"::permutation_not_opt",PO+"::compress",NEP+"::new",NE+"::permutation",NE+"::compress"])
p("C91","The equivalent round constants from tables of any shape",
"Poseidon's and Poseidon2's equivalent_round_constants, called directly with any matrix rows and any rows of constants, panic together; otherwise Poseidon2's result is Poseidon's with one more row of zeros, as long as the first row. For a matrix of two rows or more they return exactly if the matrix has a square part with nonzero leading minors (no row shorter, the first exactly as long, surplus entries zero in debug builds) and the rows of the partial rounds exist and, if there are several, the first is long enough, the middle ones have exactly the width and the last at most the width (debug builds: exactly). The result then replaces the rows of all partial rounds on every state: missing constants count as zero and surplus ones have no effect. For a 1x1 matrix [a] they return exactly if a is nonzero, the rows exist and all but the first have at most one entry (debug builds: exactly one), and the constants are those of the rows divided by a. Without a matrix or without partial rounds they panic.",
"all fields, matrices and tables of constants of any (ragged) shape, degrees, round numbers whose sum is a usize, states, both profiles","The claim ranges over all tables, shapes and states, over every field.",[P2P+"::equivalent_round_constants",POP+"::equivalent_round_constants",P2P+"::mat_vec_mul"])
p("C92","The sparse factorisation computed by equivalent_matrices",
"PoseidonParams::equivalent_matrices, called directly with t >= 2 matrix rows of which the first has t entries and the others at least t, returns exactly if all leading minors of the first R powers of the lower-right block B are nonzero; the matrix itself need not be invertible. Then the tables are: the matrix with corner one and block B^R; the vectors B^k c, with c the rest of the first column; and the vectors w (B^(k+1))^-1, with w the rest of the first row (k = 0..R-1). They serve every nonlinear function of the first entry: for any functions g_0..g_(R-1), applying g_r to the first entry and then the matrix, R times, equals the first table applied once and then, for each r, g_r and the sparse matrix built from the vectors number R-1-r. For R = 0 the first table is the zero matrix, not the unit matrix. For widths 0 and 1 and R >= 1 it panics on any rows.",
"all fields, widths, matrices (surplus entries allowed), R, functions g_r on the field, states, both profiles","The claim ranges over all matrices, all numbers of rounds, all functions g_r and all states.",[POP+"::equivalent_matrices",POP+"::mat_mat_mul",POP+"::mat_vec_mul","src/utils.rs::mat_inverse","src/utils.rs::mat_transpose"])
p("C93","Roots can be combined and updated without the other leaves",
"If a set consists of a first part of 2^k >= 2 leaves and a second part whose own tree has depth k too, the accumulator's root over the whole is the compression of the roots the accumulator returns for the two parts (at level k in the Orchard and Sapling trees, the hash of the two digests in the digest tree), and a panic of either part is a panic of the whole. A shorter second part has to be continued with copies of its last leaf to 2^k leaves first; one single leaf after a full tree contributes the leaf compressed with itself k times. If a leaf is replaced that is not the last leaf of a padded set, the root of the changed set is what a verifier recombines from the new leaf and the sibling values of the old tree, for every new value.",
"all compression functions including panicking ones, all digests meeting the contract, all k from 1 to 62, all sets up to 2^63 leaves, all positions and new values, both profiles",
"Incremental maintenance of a root relies on it at every size and position; tests compare at most a few small sets, and never a changed set with the old one.",
[MT+"::accumulate","src/merkle_tree/merkle_tree_f2.rs::accumulate","src/merkle_tree/merkle_tree_orchard.rs::accumulate","src/merkle_tree/merkle_tree_sapling.rs::accumulate"])
p("C94",'Truncated outputs are balanced, repeated application is periodic, and every compression of the crate has collisions',
'If a permutation is a bijection of the states of its width (every shipped Poseidon, Poseidon2 and GMiMC set is, and Neptune of width 4 or 8 unless the drawn internal matrix is singular), any prescribed values at k of the t output positions come from exactly q^(t-k) input states; applying it any number of times in a row neither panics nor makes two states equal, and after a number of applications that is the same for all states every state is back. A total compression of two field elements to one is never injective: some result has at least q preimage pairs, and for every size from 2 on there are two different leaf sets of that size with one root. This holds of compress of all four functions, so what binds a root to its leaves can only be that collisions are hard to find, which is why C36, C47, C69 and C77 name the pairs that collide.',
'all bijective permutations, widths, positions and values; all total compressions over finite fields; all sizes up to 2^63; both profiles','The counts range over all states of a field of up to 2^255 elements.',[P2+'::permutation',PO+'::permutation',P2+'::compress',PO+'::compress','src/gmimc/gmimc.rs::compress',NE+'::compress',MT+'::accumulate'])
p("C95",'Results over a whole line of inputs add up to zero',
'Over a field of q elements let the inputs run through all q^k points x + u_1 v_1 + ... + u_k v_k, for any point x and any k directions. If D < k(q-1), where D is d to the number of rounds (Neptune: 4^rounds_f * d^rounds_p), the results add up to zero in every word, and so do the results multiplied by any polynomial in u whose degree together with D stays below k(q-1). For all shipped Poseidon2, Poseidon and Neptune instances over BN256, BLS12, Pallas and Vesta k = 1 is enough: the results on any line add up to zero. In Merkle compression the digests add up to zero when one element is fixed and the other runs through the field, or both along a line. (A random function does not have this property, so the shipped functions are distinguishable from one, by q calls.)',
'all finite fields, parameter sets, draws, base points and directions, both profiles; the 9 + 9 + 6 shipped instances over the four large fields','The sum has as many terms as the field has elements, about 2^254.',[P2+"::Poseidon2::permutation",PO+"::Poseidon::permutation",NE+"::Neptune::permutation",GM+"::Gmimc::permutation",P2+"::compress",PO+"::compress",NE+"::compress"])
p("C96",'Along one word no value and no difference is frequent',
'Take a shipped Poseidon2, Poseidon or Neptune instance over BN256, BLS12, Pallas or Vesta (Neptune: whatever was drawn, unless the first diagonal entry is 0), and fix all words of the input except one. Every value of any word of the result is taken for at most D values of that word, and adding a nonzero delta to it changes any word of the result by a given amount for at most D-1 values of it, where D is d to the number of rounds (Neptune: 4^rounds_f * d^rounds_p), less than p/2^100 (Neptune: p/2^66). In Merkle compression with Poseidon or Poseidon2 of width 3, or Neptune of width 4, and one element fixed: a digest belongs to at most D values of the other element, and of all pairs of different values of the other element less than one in 2^100 (Neptune: 2^66) has equal digests.',
'the 9 + 9 + 6 shipped instances over the four large fields, all draws, all inputs, words, differences and values, both profiles','Counts over fields of about 2^254 elements.',[P2+"::Poseidon2::permutation",PO+"::Poseidon::permutation",NE+"::Neptune::permutation",P2+"::compress",PO+"::compress"])
p("C97",'For almost all input differences no output difference is likely',
'Take a shipped Poseidon2 or Poseidon instance over BN256, BLS12, Pallas or Vesta, and let D be d to the number of rounds, less than p/2^100. For all but p^(t-1) of the p^t directions v: adding v to the input changes a word of the result by a given amount for at most (D-1) p^(t-1) of the p^t inputs, and on any line in direction v a word of the result takes a given value at most D times. Directions that change a single word are never exceptions to the first part. In Merkle compression with width 3: for all but d^(rounds_f/2) p = 625 p of the p^2 differences of the two elements, and for every nonzero difference of one of them alone, the digest changes by a given amount for at most (D-1) p of the p^2 pairs; and of all p^4 pairs of inputs at most D p^3, less than one in 2^100, have equal digests. With Neptune of width 4, unless the first drawn diagonal entry is 0, of all p^4 pairs of inputs less than one in 2^66 has equal digests.',
'the 9 + 9 shipped instances over the four large fields (last sentence: the shipped Neptune instances of width 4, all draws), all directions, inputs, words, differences and values, both profiles','Counts over sets of at least 2^508 elements.',[P2+"::Poseidon2::permutation",PO+"::Poseidon::permutation",P2+"::compress",PO+"::compress"])
p("C98",'Communicating threads: calls return in time and agree, and random elements are used once',
"Take a process of any number of threads with arbitrary programs: what a thread does next - a call on a shipped parameter set, or drawing a random field element from its thread's generator, or nothing - may depend on everything that has happened so far in all threads. Then under every schedule: (a) a call on at most 2^63 elements panics exactly if it is illegal, a panic ends only the thread that made the call, and nothing happens that no program asked for; (b) a call has returned or panicked once every thread has had more turns than all initializers together take steps, whatever the other threads do meanwhile; (c) equal calls, also the plain and the optimized version of one, give equal results in all threads; the results are those of one permutation per parameter set, for Poseidon and Poseidon2 the one of the published constants, so that their results are the same in all processes; (d) every element a program draws is a new element of its thread's random sequence, the randomly generated parameter sets are made of segments of these sequences that do not overlap, and no element a program has drawn is in such a segment.",
'all numbers of threads, programs, random sequences (for (b), sequences that do not run out of nonzero elements), schedules and both profiles',"The first use of a parameter set may fall at any point of any thread's program, between any two draws of it, and the interleavings cannot be enumerated.",["src/fields/utils.rs::random_scalar",P2+"::Poseidon2::permutation",PO+"::Poseidon::permutation",GM+"::Gmimc::permutation",NE+"::Neptune::permutation",MT+"::MerkleTree::accumulate"])
p("C99",'No polynomial of lower degree agrees often with a result',
'For the shipped Poseidon2 and Poseidon sets over the four fields of 254 and 255 bits, with D = d^(rounds_f + rounds_p), which is less than p/2^100: whatever polynomial g of total degree below D in the words of the input is chosen, for at most D p^(t-1) of the p^t inputs a given word of the result is g of the input. So no word of the result is, for more than one in 2^100 inputs, an affine or any other low-degree function of the input, and fewer than one in 2^100 states are their own result. More generally, for a polynomial R of degree m in one variable and g of total degree below m D, the word c of the result satisfies R(c) = g(input) for at most m D p^(t-1) inputs. The digest of two elements a, b (width 3) satisfies R(digest) = g(a, b) for at most m D p of the p^2 pairs. The same holds for Neptune of width 4 (also its digest) and 8 over these fields, unless the first drawn diagonal entry is 0, with D = 56^2 d^rounds_p and 4^6 d^rounds_p, less than p/2^66. Not claimed for GMiMC and the small fields, where the degree exceeds p.',
'the 9 + 9 shipped instances over the four large fields and the 6 Neptune instances over them (all draws with a nonzero first diagonal entry), all polynomials R and g, all word positions, both profiles','The bound is about the number of inputs, among about 2^(254 t), for which a relation holds, and about all relations; sampling cannot tell a rare relation from one in 2^90.',[P2+"::Poseidon2::permutation",PO+"::Poseidon::permutation",NE+"::Neptune::permutation",MT+"::MerkleTreeHash::compress"])
open('/verif/properties.jsonl','w').write(''.join(json.dumps(x)+'\n' for x in P))
print(len(P))
