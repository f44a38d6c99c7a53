# Formal model of dieharder in Lean 4

## What is here

* `properties.jsonl`: the semantic properties (C01, C02, ...), stated in terms of
  the API and observable effects.
* `lean/Verif/Model/*.lean`: the model, function by function. Every definition
  carries a comment with the file and lines of /repo it models and says where it
  simplifies.
* `lean/Verif/Spec/*.lean`: the small independent specifications the theorems
  refer to.
* `lean/Verif/Proof/*.lean`: helper lemmas.
* `lean/Verif/Props/*.lean`: the property theorems, each next to a concrete
  example that meets its hypotheses.
* `MANIFEST.json`: property -> theorem names and status.
* `seeded/LOG.jsonl`: the mutation log (deliberate bugs put into a scratch copy
  of the model and the theorems that caught them).

## Trusted base

* Lean's kernel (Lean 4.33.0) and the axioms `propext`, `Classical.choice`,
  `Quot.sound` (the only ones any property theorem depends on; no axiom of our
  own, no `sorry`, no `native_decide`, no `bv_decide`).
* The faithfulness of the model to the source, by reading. Nothing was compiled
  or run. Assumed platform: LP64, little-endian, two's complement,
  `unsigned int` 32 bits, `unsigned long` 64 bits, `char` signed where it matters
  is said in place.
* External code is a parameter: GSL (`gsl_rng_get`, sorting, special functions),
  libc stdio and libm. What is assumed of it is said in the comment of the
  definition (for example "sorting returns a sorted permutation").

## Modelling conventions

* `unsigned int` is `BitVec 32` when bits or wrap-around matter, `Nat` when the
  value is a count that provably stays below 2^32 (said in place).
* `double` is modelled by exact rationals or reals (kstest.c: any ordered field). Rounding is not modelled;
  every theorem about doubles is therefore about the exact-arithmetic reading of
  the code. This is stated at each definition.
* A C function may end in four ways, `Res α`: `ok a` (returns `a`), `exit` (the
  code calls `exit()`), `ub` (undefined behaviour: out-of-bounds access, shift by
  >= 32, division by zero, ...), `loop` (the fuel of a `while` loop was used up;
  theorems prove that this outcome does not occur, or that it does for every
  fuel, i.e. non-termination).
* Static variables are explicit state. A random generator is an infinite stream
  of words plus a position (`gsl_rng_get` returns the next word), or a
  state-transition function when the generator itself is the subject.
* Debug output (`verbose`, `MYDEBUG`) is not modelled.

## Plan per property

| Id | Model | Proof idea |
|----|-------|-----------|
| C01 | `get_bit_ntuple` loop over words, ioffset, carry addition | loop invariant: low `rlen` bits of result are the cyclic bits; addition has no carries because the operands have disjoint bits |
| C02 | `b_umask`, `b_window` with exit outcome | bit extensionality |
| C03 | `b_rotate_left/right` | bit extensionality against `BitVec.rotateLeft/Right`; shift 0 exits (negative theorem) |
| C04 | all seven rules of `get_ntuple_cyclic` | full correctness for widths <= 32 by case analysis on alignment; exact set of wider requests that abort (counterexample to the full claim) |
| C05 | `get_uint_rand` with its statics | refinement to the bit stream when the buffer never empties exactly; negative theorem with witness for r = 16; exact description of the polluted words |
| C06 | `get_rand_bits` with circular buffer, on top of C04 | invariant relating (brindex, bitindex, iclear, buffer) to the number of bits served; induction on the request list |
| C07 | `get_rand_bits_uint` with its statics | abstraction to a list of pending bits; induction on requests |
| C08 | two single-word extractors | bit extensionality |
| C09 | `reset_bit_buffers` | two-run statement; witness for the leak without reset |
| C10 | `binary_rank` on rows | elimination preserves the row span; compare with Mathlib's `Matrix.rank` over `ZMod 2` for ncols <= 32; witness of a wrong answer for ncols > 32 |
| C11, C12, C15 | `create_test`, `clear_test`, `add_2_test`, `std_test` as a state machine | invariant by induction over call histories; witness for overrun without strategy |
| C13 | `execute_test` loop | measure Xoff - psamples; stop-condition theorem; witness of endless loop |
| C14 | assessment branches over ordered values | case analysis over rationals |
| C16 | `Vtest_eval` pooling over rationals | induction over cells |
| C17 | `kstest` statistic over an ordered field | sorting of a permutation gives the same list |
| C18 | `mMultiply`, `mPower` over a commutative semiring, 10^e scaling | induction on exponent against Mathlib's matrix power |
| C19 | text writer of `output_rnds` and reader of `file_input` at character level | round trip by induction on the value list |
| C20, C21 | file generators as state machines over the list of values/bytes; numbers in base 8, 10 and 16 | induction on draws; digit lists for the numerals |
| C22 | `XOR_get` over a vector of generators | characterisation; negative theorem |
| C23, C24, C25, C26 | `kiss`, `superkiss`, `ca`, `uvag`, `aes`, `threefish` state machines | invariants by induction on draws; negative theorems with witnesses where the code breaks the claim |
| C27, C28 | Rijndael T-table implementation, all tables | table facts by whole-table `decide +kernel`; column algebra; refinement to a FIPS-197 style specification |
| C29 | inverse steps of both ciphers | explicit left inverse of each round |
| C30 | spacing count loop | exact characterisation on sorted lists; witness of undercount and of the out-of-range read |
| C31 | `kperm` | for distinct values: index determined by and determines the order pattern; surjectivity on 120 cells |
| C32 | window update of the bitstream test | invariant over positions; counter wrap witness |
| C33 | letter table and rolling base-5 index | whole-table check; induction over letters |
| C34 | Euclid loop | equality with `Nat.gcd` and an independent step-count relation |
| C35 | dice probabilities over rationals, throw loop | closed forms; summation identities |
| C36, C37, C38, C39, C40, C41, C42, C44 | tally loops | conservation and exactness by induction over the sample |
| C43 | tree insertion | index bounds, node accounting; witnesses of overrun |
| C45 | missing-word counting | count of unset cells versus set of seen words; wrap witness for `char` counters |
| C46 | pruned search | equality with brute-force minimum, over sorted lists |
| C47 | parking loop | invariant |
| C48 | mask loop | bit extensionality |
| C49, C50, C51, C52, C53 | command line and reporting logic | decision-logic theorems |
| C54, C55 | R generators | arithmetic invariants; shared-table witness |
| C56 - C60 | small loops | induction |
| C61 | the two Threefish-512 block routines (unrolled and loop form) | rewrite both to the round function of the paper; the key schedule is compared word by word |
| C62 | Rijndael decryption tables | inverse of the equivalent inverse cipher, whole-table facts |
| C63 | `aes_set` key bytes | injectivity of the key bytes on 32-bit seeds |
| C64 | `threefish_get` feedback | induction on blocks; injectivity of the block function for a fixed key and of the first block in the seed |
| C65 | `MT_genrand` | refinement to the MT19937 recurrence written on an infinite sequence |
| C66 | `ran_array`, `ran_start` | same, plus the invariant "some odd entry" |
| C67 | the two rank tests on top of C07 and C10 | induction over samples; the multiset of pooled ranks |
| C68 | counting of GF(2) matrices by rank | recursion on rows; closed form; integer inequalities |
| C69, C70 | `diehard_sums` over the reals | loop invariant; bilinearity of covariance (Mathlib `covariance`) |
| C71 | `diehard_3dsphere` over the reals | running minimum invariant over the set of visited pairs |
| C72, C73, C74 | `dab_dct`, `fDCT2_fft`, `iDCT2` over the reals; GSL's FFT by contract | mirrored Fourier sum; orthogonality of cosines; loop invariants; expectation and covariance |
| C75, C76 | `q_ks`, `p_ks_new` | alternating series; the matrix of Marsaglia, Tsang and Wang entry by entry, on top of C18 |
| C77, C79, C80 | the functions of chisq.c over the reals; GSL's densities by documentation | loop sums; Gibbs' inequality; algebra |
| C78 | the statistics of C77 under ideal trials | variance of a sum of pairwise independent indicators |
| C81 | `p_ks_new` against the law of the Kolmogorov-Smirnov distance | transfer from unit interval to unit interval: disjoint union over which points lie below `s`, independence, inclusion-exclusion for the two borders; the weights are a column of the matrix power; distance below `d` in terms of counts |
| C82 | `kstest` on uniform samples | its statistic is at most the distance; probability integral transform; disjoint boxes for the atom |
| C83 | missing words of opso, oqso, opso2 under uniform draws | the words read distinct bits, so they are independent and uniform; moments of the number of empty cells by counting functions that avoid one or two cells; interval arithmetic for the constants |
| C84 | `sts_serial` statistics, `Spec.serialPsi` | C40 for the counts; algebra for psi; exact mean of Pearson's statistic through windows: two windows at a distance match with the weight of independent windows even when they overlap (induction from the right) |
| C85 | count-the-1s p-value, `Spec.wordStat` | C33 for the counts, C16 for pooling, the window theorem of C84 over bytes instead of bits |
| C86 | `diehard_operm5` statistic, table of diehard_operm5.h in units of 10^-14 | C31 for the counts; bilinear expansion into pairs of samples; a random order restricted to a window is a uniform random permutation; windows without common places are independent; the remaining means (five to nine values) are sums over all arrangements, computed by the kernel through Lehmer codes |
| C87 | `vtestEval` on the counts of pairwise independent trials (`Spec.PairTrials`) | C16 for the statistic; second moments of sums of indicators |
| C88 | `rgb_permutations` with its `Vtest` | C60, C87; windows of a random order as in C86; the cells are a bijective image of the permutations |
| C89 | `diehard_runs` statistic (counts: C36) | the numbers of runs longer than p are combinations of ascending chains on the circle of the n draws; overlapping chains merge into a longer chain (probability 1/m!), disjoint chains are independent (C86); the sums of the remaining rational covariances are computed by the kernel |
| C90 | device and stdin generators, `roll` of craps through `gsl_rng_uniform_int` | the value of a list of bytes in base 256 (induction); a draw splits into its low and high half; induction over the rejected draws |
| C91 | `parsecl` (-d, -f, -g, -S), `select_rng`, `choose_rng`, `run_test` | `strtol` against a relational definition of a numeral; an invariant of the vectors over the list of options; the search loop finds the first match (induction) |
| C92 | `marsaglia_tsang_gcd` with its `Vtest` (counts: C34) | C16 for the statistic; pairs with a given gcd by Moebius inversion with an explicit error, the value 6/pi^2 from the zeta function; independent trials as in C87; interval arithmetic for the excess |
| C93 | `diehard_squeeze` with its table and `Vtest` (counts: C37) | trials of random length on independent draws (stopping times); the law of the number of steps by recursion, then as complete homogeneous symmetric functions of 1/2, ..., 1/(2^31-1); Newton's identity; power sums by integer sums and tail estimates, evaluated by the kernel; C87 for the mean |
| C94 | `dab_filltree2` with its table and first p-value (trees: C43) | random words are random bits; law of the marked tree by induction on the height (a path through a node goes left or right with equal chance, so the numbers of paths left and right are binomial), the position by the flip symmetry; exact integer tables checked by the kernel; C93's stopping times and C87 for the mean |
| C95 | `dab_filltree` with its table and both p-values (trees: C43) | the array as a binary search tree; the number of key sequences that fit lies between a falling and a rising factorial times the law for random order, by induction on the height; exact rational table checked by the kernel; stopping times and C87 for the means |
| C96 | `diehard_rank_32x32`, `diehard_rank_6x8` with `Vtest_eval` (ranks: C67, C68) | the bits of the words are read in disjoint blocks, so the matrices are pairwise independent; law of the rank and C87; rounding of the constants bounded by the kernel |
| C97 | the statistic of `dab_bytedistrib` (cells: C42) | each of the nine byte positions gives pairwise independent uniform bytes; the mean over the 2304 cells is a sum over the positions; pooling of all cells below 1280 samples |
| C98 | the statistic of `rgb_bitdist` (counts: C41, bits: C07) | tuples are disjoint blocks of bits, so the samples are pairwise independent; binomial law by induction on the number of tuples; the mean theorem of C87 for any cutoff |
| C99 | `evalMostExtreme` (dab_dct.c, used by dab_monobit2.c) over the reals | loop invariant for the first most extreme p-value; reflection of the unit cube exchanges the two sides; volumes of boxes |
| C100 | `diehard_craps` to the two statistics, rolls from the infinite product of fair dice | first roll splits off the product measure; induction over throws, then over games (strong Markov property); rational probabilities carried over to equally likely outcomes and C87 |
| C101 | `sts_monobit`, `sts_runs`, `rgb_lagged_sums` with `Xtest_eval` | sums of independent trials; for the runs, the sets of places that contain some points and avoid others are counted by binomials, and two changes are neighbours or use four places |
| C102 | `kiss_get`, `kiss_set`, `superkiss_get` | least periods: the congruential part by lifting powers of an affine map modulo 2^k, the xorshift parts as GF(2) matrices squared inside the kernel and the prime divisors of the period, the multiply-with-carry part as powers of the base modulo a safe prime (Lucas certificates for the primes); coprime periods multiply |
| C103 | `unif_rand` of R: Wichmann-Hill, multicarry, super-duper | orders modulo primes by powers inside the kernel; the three residues are recovered from the rounded fractional part; multiply-with-carry modulo two safe primes; x^32+x^15+1 splits into degrees 11 and 21, certified by matrices that carry the words fixed by one power to those fixed by another |
| C104 | `KT_next` of R: the two Knuth generators | the shift generates a quotient of ℤ[X] where e^100+e^63 = 1; its order is 2^29(2^100-1) by powers of X modulo two (kernel computation, factorisation of 2^100-1) and lifting 1+2c step by step; 100 of 1009 words are kept, 1009 coprime to the period |
| C105 | `MT_genrand` of R | with E = t^623+t^396 the bits of the words are polynomials in the shift t of the lowest bit, which satisfies t·G(E) = 1, the bits of 0x9908b0df being the coefficients of G; t^(2^19937) = t by 19937 squarings of numbers whose bits are coefficients, in the kernel; 2^19937-1 prime by Lucas-Lehmer in the kernel |
| C106 | the words of `MT_genrand` | the state is a vector of 19937 bits that runs through all nonzero vectors (C105); 623 words are linearly independent functions of it, so the tuples are counted by the fibres of a surjective linear map |
| C107 | `dieharder_rng_types`, `add_ui_rngs`, `list_rngs`, `dh_header`, -g | the table as a function of the index; the printed text is a list of lines built from the table; the selection theorem C91 applied to each entry |
| C108 | `rgb_kstest_test` | the filled vector is a list of the deviates; sorting makes kstest a function of the multiset; C82 for the law |
| C109 | `diehard_2dsphere`, `diehard_3dsphere` | union bound and Bonferroni's second inequality over the pairs of points; two pairs never help each other, because one of them has a point the other does not contain; a point away from the border has its whole ball in the cube |
| C110 | `rgb_minimum_distance` | the volume of balls in even and odd dimensions from Mathlib; Fischler's formula is increasing for n >= 5; the bounds of C109 |
| C111 | `kstest_kuiper` up to the tail function | the empirical process of a sorted sample is extremal at or just before the sample points; differences of the process are sums of fractional parts, which a rotation only permutes |
| C112 | `aes_get`, `threefish_get`, `ca_get` | an injective map of a finite set has cyclic orbits; the ciphers are injective (C29), the sweep of the automaton as well (C25); prefixes of the configuration evolve on their own, the first cell under a permutation of the bytes whose cycles are found in the kernel |
| C113 | `dieharder_test_types`, `list_tests`, -d, -a | the table as a function of the index (writes at consecutive indices); the text as a list of lines; the selection theorem C91 for an option list that ends with -d; C51 for -a |
| C114 | `parsecl`, `help` | one lemma for a variable that one option sets (induction over the option list), applied to each variable; -d, -f, -g, -S and -D run on their own sublists, for which C91 and C49 apply |
| C115 | `execute_test` (the reseeding), `get_rand_bits_uint`, the requests of `rgb_bitdist` | the number of bits in the queue is, modulo r, minus the number of bits taken; a stream whose only nonzero bit is the first one shows the difference |
| C116 | `q_ks_kuiper` | the series are the first and second derivatives of x times Jacobi's theta function; Poisson summation gives a second series for each, and at every point one of the two has all terms of one sign; termwise comparison for the negative values |
| C117 | `output`, `output_table_line` and their headers | the line is the separator between the shown cells (induction over the fields), cells are padded texts without the separator; every other block is made of whole lines that do not begin with 2 (compositional invariant on texts) |
| C118 | `output_histogram` | invariant of the counting loop (counts and their maximum), minimality of the scale loop, the text cut into lines and cells |
| C119 | from `gsl_rng_alloc` in `select_rng` over `time_rng` to the draws of the tests | generators as records of `set` and `get`; nested timing loops as one loop; an invariant per kind of generator (position in the input, position in the circle of the file, number of draws since seeding) |
| C120 | `user_template`, `marsaglia_tsang_gorilla` | loop in closed form; equality with the model of rgb_lagged_sums; case analysis of the conversion of -x to `unsigned int` |
| C121 | `main` of rng_jenkins.c | the step is a bijection of the nonzero words, hence its orbits are cycles |
| C122 | `dab_monobit2` as a whole | search loop by induction; the table of C44 cut into the cells of a level (overlapping in one cell); `chisq_binomial` by C77, `evalMostExtreme` by C99; bounds on central binomial coefficients |
| C123 | `craps`, `gcdTest` (existing models) on periodic sources | the throw that made the point comes again one period later; the accepted words of a period counted with `Nat.count`/`Nat.nth`; for the gcd test a nonzero word comes again |
| C124 | `diehard_birthdays`, `dab_birthdays1` as a whole | search loop: `λ^k/k!` tends to 0, `Nat.find`; tally by C30, `chisq_poisson` by C77; narrow generators: `e^λ ≥ 2.7^m (1+λ-m)` |
| C125 | `diehard_rank_32x32` (existing model) on words of a subspace | rank = dimension of the row span; the tally by C67, the statistic by C16; lower bound as a sum of squares |
| C126 | the end of `kstest` (`ksFinish`), `kstest`, `p_ks_new`, `q_ks` | order statistics of a sorted list by counting; C17, C75, C76; `e^14.6 > 2·10^6` |
| C127 | `%10.8f` (`printP`), the assessment (`assess`) | rounding is monotone and within 1/2; p-values printed alike have no limit between them |
| C128 | the tests for missing words, count-the-1s, sts_monobit, sts_runs, sts_serial | inverting the bits maps word `v` of `N` to `N-1-v`; C32, C38, C39, C40, C45, C84, C85 |
| C129 | `runs`, `operm5`, `rgb_permutations`, `diehard_rank_32x32`, `kstest` | simulation of two runs of the loop; C17, C31, C60, C67; an additive injection preserves the dimension of the row space |
| C130 | `sts_monobit`, `Xtest_eval`, `kstest` | C38; Chernoff's bound for Mathlib's normal distribution; C126; the bits of a word and of its complement are 32 |
| C131 | `kstest` over the samples of any test; raw files | samples that begin at the same place modulo the period see the same words; pigeonhole; C126, C21 |
| C132 | countx.c: `ranval`, `count`, `gather`, `probinit`, `expect` of `chi` | masked shifts act on blocks one by one, bytes by the kernel; base-4 windows by induction, `Tallied`; Gray code is one-to-one, subsets of 32 places; the cells' products sum to 1 |
| C133 | `random_seed`, `makeseed`, `delta_timing` | bytes of a word; the sums of seconds and microseconds lie in an interval |
| C134 | `binomial` (prob.c) | factorials against binomial coefficients; the binomial theorem for the sum and for the mean |
| C135 | the p-values of opso, oqso, dna, bitstream, opso2 on periodic sources | words of a periodic source are periodic (C45, C32), so at most a period of them occurs; the count is then 4 deviations high; Gaussian tail (C130) and crowding (C126) |
| C136 | rngav.c: `ranval`, `raninit`, `count`, `gather`, `report`, `driver` | explicit inverse; the three nested loops by induction with sums over the trials; `32-x` wraps for x > 32, so only the lower bound counts; the lengths double, so the number of trials is the length reported |
| C137 | `kstest_kuiper` and its tail on crowded p-values | positions in the sorted list as in C126; the series against a geometric one; C116_below |
| C138 | p-values of chi-square statistics; `dab_bytedistrib` on uneven or too even bytes | Chernoff's bound for the incomplete gamma integral (both ends), one term of Pearson's sum, the counts of C42 |
| C139 | `sts_runs`, `rgb_lagged_sums` on uneven sources | C39 and C56 for the statistics, q(1-q) <= 1/4, the tail bound of C130, C126 and C137 |
| C140 | `diehard_rank_32x32` on linear relations, `rgb_permutations` on uneven orders, as whole runs | C125 for the rank statistic, C60 and `permStat_eq` for the cell of an order, C138's tail bound, C137 for the run |
| C141 | `sts_serial` against predictors | C84 for the statistics; counts as sums over window values, a pattern extended to the right and (by a cyclic shift) to the left; differences as sums of squares; Cauchy's inequality over the patterns; C138 and C137 |
| C142 | `diehard_count_1s_stream`, `diehard_count_1s_byte` against predictors | C85 for the statistic; per four-letter word, completing the square over the first letter; Cauchy's inequality; the tail bound of C139 and C137 |
| C143 | `marsaglia_tsang_gcd` on generators that avoid a common divisor | C34 for the tables, C92 for the statistic and the size of the table, one empty cell, C138's tail bound and C137 |
| C144 | `rgb_kstest_test` on uneven deviates, as a whole run | C108 for the vector, C126 and C137 for the distance; the p-value of a large distance is an exponential or an alternating series, so not negative; C137 for the run |
| C145 | `diehard_craps` on uneven dice | C35 for the counts, C100 for the expectations, the tail bounds of C138 and C139; with dice of equal parity no later throw is a 7, so every lost game has one throw and wins and games of one throw are too many together; C126 for the run |
| C146 | `diehard_squeeze` on one-sided deviates | C37 for the trials, C93 for the table; `2^j k_j` and `2^j (k_j - 1)` are bounded along a trial, so some numbers of steps are impossible; one empty cell, C138's tail bound and C137 |
| C147 | `diehard_runs` on sources that drop too often or too rarely | the table of weights is bounded below by sums of squares (`runs_total`, `runs_class_*`); the number of ascending runs is the number of drops by induction on the draws (C36); C138's tail bound and C137 |
| C148 | `diehard_rank_6x8` on words with linear relations in the low byte | C67 for the cells, of which ranks 0 to 2 stay below the cutoff; rows in a space of five dimensions exclude rank 6 (Mathlib's row rank); C138's tail bound and C137 |
| C149 | `rgb_bitdist` on generators with equally frequent tuples | C98 for the cells; a cell that expects 121 samples and is empty suffices for 64 degrees of freedom, and for each width from 1 to 12 there are two such cells; C138's tail bound and C137 |
| C150 | `dab_monobit2` on generators with uneven blocks | C122 for the value; Chernoff bound (C138) per level, Bernoulli's inequality for the correction; Cauchy-Schwarz over the used cells when a cell is missing |
| C151 | the minimum distance tests on close, coinciding and spread points | C71, C110 for the p-value; monotony of Fischler's formula; pigeonhole on the points for few values; C137 and C139 for the final p-value |
| C152 | `diehard_parking_lot`: capacity of the lot, and generators with few or coarse places | C47 for the accepted attempts; they lie in different unit squares, and every square tried is next to one; C139's four deviations |
| C153 | `diehard_operm5` on generators with a missing order, or one order only | C86 for the statistics; one cell of Pearson's statistic; for overlapping samples the expansion of the quadratic form (C86) and kernel-evaluated bounds for the diagonal and the row and column sums of the table |
| C154 | `diehard_birthdays` on generators with uniform samples | C124 for the statistic, with the six expected values enclosed; C138's tail bound and C137 |
| C155 | `dab_dct` on generators whose blocks peak at few places | C73 for the statistic; a tangent bound on each cell gives chi-square ≥ n; the Chernoff bound of C138; the cosine sums of C72 for constant blocks |
| C156 | `dab_filltree` on sequences of keys with missing results | C43 for the tables; an invariant (the rightmost path ascends) by induction over the insertions; the Chernoff bound of C138 |
| C157 | `dab_filltree2` on bit streams of small period | C94 for the statistic; a periodic stream has as many different trees as its period (induction over the trees); pigeonhole on the cells with large expectations |
| C158 | the rotation schedule of `dab_filltree` | the loop with rotation (`Model/FillRotate.lean`) refined to the loop over keys, tree by tree; closed form of the schedule by induction; the invariant of C156 for each tree |
| C159 | `kstest_kuiper` on intervals and under changes of a few p-values | C111 for the statistic as a least upper bound of differences of the empirical process; counting in half-open intervals by induction |

Several properties were first stated as the code's documentation has it and
turned out to be false of the code. They were restated as the exact behaviour
together with a theorem that exhibits the deviation; these are the findings
below.

## What is modelled

Modelled completely up to the conventions above (functions whose every
statement with an observable effect has a counterpart; debugging output left
out): Vtest.c, bits.c (all functions used outside debugging), static_get_bits.c,
rank.c, std_test.c, kstest.c (`q_ks_kuiper` carried to the limit), chisq.c, Xtest.c,
histogram.c, parse.c (`split`, `chop`), dab_birthdays1.c, dab_bytedistrib.c, dab_dct.c,
dab_filltree.c, dab_filltree2.c, dab_monobit2.c, dab_opso2.c,
diehard_2dsphere.c, diehard_3dsphere.c, diehard_birthdays.c, diehard_bitstream.c,
diehard_count_1s_byte.c, diehard_count_1s_stream.c, diehard_craps.c,
diehard_dna.c, diehard_operm5.c, diehard_opso.c, diehard_oqso.c,
diehard_parking_lot.c, diehard_rank_32x32.c, diehard_rank_6x8.c, diehard_runs.c,
diehard_squeeze.c, diehard_sums.c, marsaglia_tsang_gcd.c, rgb_bitdist.c,
rgb_kstest_test.c, marsaglia_tsang_gorilla.c, user_template.c, rng_jenkins.c, rgb_lagged_sums.c, rgb_minimum_distance.c, rgb_permutations.c, rgb_persist.c,
sts_monobit.c, sts_runs.c, sts_serial.c, rijndael-alg-fst.c, rng_aes.c,
rng_threefish.c, skein_block64.c, skein_block_ref.c, rng_ca.c, rng_kiss.c,
rng_superkiss.c, rng_uvag.c, rng_XOR.c, rng_file_input.c, rng_file_input_raw.c,
rng_stdin_input_raw.c, rng_dev_random.c, rng_dev_urandom.c, rng_dev_arandom.c,
rngs_gnu_r.c, random_seed.c, timing.c, prob.c, dieharder_rng_types.c, add_ui_rngs.c, list_rngs.c, list_tests.c (without
the verbose messages). In the tests the model ends at the call that turns the counts
into a p-value (`Vtest_eval`, `Xtest_eval`, `kstest`), except where a theorem
says otherwise; expected-value tables are modelled where a theorem is about
them (C33, C35, C44, C68, C86, C92, C93, C94, C95, C96, C97, C98, C100, C101).

Modelled in part: countx.c (without the chi-square sum and `main_countx`), rngav.c (without `main_rngav`), version.c (`dh_header`), choose_rng.c (the chosen generator, its bit width, its timing and seeding), time_rng.c and rgb_timing.c (what is drawn),
output.c and output.h (of the formatting of doubles only `%10.8f`, for rationals), output_rnds.c (the number writers),
parsecl.c (all options, given what `getopt` and `strtod` return), help.c (which text is printed), run_all_tests.c, run_test.c, add_ui_tests.c,
set_globals.c, dieharder_test_types.c (which tests exist and in what order).

Not modelled: GSL itself, floating-point rounding, the texts of printed
messages other than the report, list_rand.c, rdieharder.c (R interface),
testbits.c, the programs and helpers that nothing calls
(sample.c), the files that Makefile.am does not compile
(diehard_runs_working.c, rgb_lmn.c, rgb_operm.c, rng_empty_random.c), and whatever is not named above.

## Axioms

`AXIOMS.md` lists the axioms of every property theorem (output of
`#print axioms`). Only `propext`, `Classical.choice` and `Quot.sound` occur.

## Findings

Deviations of the code from its documentation or from defined behaviour. Those
with a theorem are proved of the model; the others were noticed while reading.

Bit handling
* `get_ntuple_cyclic` (bits.c) aborts for some widths above 32 bits: `C04_aborts`.
* `get_uint_rand` adds the previous word into every word that starts a fresh
  buffer, so no width below 32 is repackaged losslessly: `C05_full_claim_fails`.
* `get_bit` takes bit 31 with `(int) pow(2,31)`, an out-of-range conversion: `C58_get_bit_saturating`.
* `fill_uint_buffer` loses bits for every width except 16: `C59_fill_loses_bits`, `C59_fill_leaves_zeros`.
* `reset_bit_buffers` resets bits.c but not the buffers of static_get_bits.c.
* `b_rotate_left/right` abort for a rotation by 0: `C03_rotations`.
* `binary_rank` is wrong for more than 32 columns: `C10_wrong_rank`.

Test machinery
* `std_test` overruns the p-value vector when called beyond the limit without a
  strategy: `C11_overrun`; without a verdict the adaptive loop never ends:
  `C13_forever`; `clear_test` and `create_test` size tests differently: `C15_clear_differs`.
* `Vtest_eval` called twice pools twice: `C16_not_idempotent`; a vector with no
  cell above the cutoff leaves no degrees of freedom: `C16_no_cells`.
* `kstest` computes `max(d1,d2)` but uses `d1` only, with `i/(count+1)`; this is
  not the Kolmogorov-Smirnov distance to which `p_ks_new` applies. For evenly
  spaced p-values it is 0 and `q_ks` makes it the p-value 2: `C75_even_spacing`.
  For ideal uniform p-values the result is exactly 1 with probability at least
  n!/(n+1)^n, which is graded FAILED (2/9 for `-p 2`): `C82_atom`.
* `kstest_kuiper` starts both extremes at 0 and compares the j-th value with j/n
  only, so its statistic misses up to 1/n of Kuiper's and is not invariant under
  rotation: `C111_statistic`, `C111_not_invariant`.
* `chisq_binomial` wraps to 2^32-1 degrees of freedom when no cell has more than
  ten counts: `C77_binomial`. `chisq_poisson` and `chisq_geometric` drop the tail
  but count degrees of freedom as if the cells were exhaustive: `C78_poisson_bias`.
* `chisq_uint_uniform_gtest` overflows from 46341 cells on: `C79_overflow`.
* `mPower` with exponent 0 does not return: `C18_zero_diverges`.
* `split` stores fields of 128 or more characters unterminated: `C52_unterminated`;
  `chop` drops the last character whatever it is: `C52_chop`.
* `histogram` ignores `min`: `C53_min_ignored`.
* Field selection: enabling `-D` by name toggles by addition; the last field
  cannot be selected (18 names versus 19 fields): `C49_name_on_fails`, `C49_last_fails`.
* `split` drops fields from the 1024th on. The loop counter of `output_rnds` is
  an `unsigned int` compared with an `unsigned long`; that of diehard_squeeze is
  a signed `int`.
* The device generators return 64 bits but advertise 32: deviates exceed 1
  (`C90_double`), half of the bytes are lost (`C90_uint`) and the craps test
  does not end in practice (`C90_hang`).
* `ca`: the low byte of every 514th number has a period of at most 169, and is
  constant for one seed in seven: `C112_ca_byte`.
* `add_ui_tests` is not called anywhere: the user test 600 does not exist.
* -t is taken modulo 2^32 and ignored from 2^31 on (`C114_run`); the usage is always
  printed with exit status 0, although parsecl.c wants 1 when there is no argument;
  -Z is accepted without effect; -h does not know the names of tests (`C114_mode`).
* -l prints names that -d refuses, and not those that it accepts: `C113_refused`.
  -a runs the test marked "Do Not Use" as well: `C113_all`.
* `kstest_kuiper` returns negative p-values (`C116_constant`) and does not return for the
  sample 0, 1/n, ..., (n-1)/n (`C116_grid`, `C116_zero_diverges`).
* Timing the generator, which is on by default, takes the first 40 MB of standard input away from the tests; shorter input ends the
  program with status 0 and no result (`C119_stdin_default`).
* The top line of the histogram is always empty (`C118_height`); `%d` prints an ntuple from
  2^31 on as a negative number (`C117_columns`: the content is `ntuple.toInt`).
* -s 1 with a seed does not apply every test to the same sequence: the bit buffer of the
  previous run is used up first (`C115_different`, `C115_bitdist_31`).
* `gvcount` is not checked against `GVECMAX` (parsecl.c): `C91_too_many`.
* Several -g do not combine generators, although parsecl.c says so: only the
  first counts, `select_XOR` is never called (`C91_selected`). Components of
  the generator XOR given by name are replaced by generator 0:
  `C91_xor_components`. -S stores the number of a generator in `gseeds`.
* A number after -d wins over a later name, and `-d 7up` is test 7: `C91_selected`.

Tests
* Birthdays: the interval loop reads one entry beyond the array and misses
  coincidences: `C30_undercount`, `C30_overrun`.
* gcd: the cell of gcd 1 is left out but its degree of freedom is subtracted
  anyway, and the last cell is missing the values from 100000 on: the null mean
  of the statistic exceeds the degrees of freedom by 0.76 at the default sample
  size and by a thousand at 4*10^9 samples: `C92_default`, `C92_excess`.
* squeeze: its table is right, every entry to 1.25e-8, and the null mean is 38 up
  to 0.002 with the 38 degrees of freedom of a default run: `C93_table`, `C93_default`.
- `dab_filltree2`: the second p-value compares with a uniform position, which holds only if size/2 is a power of two: `C94_position`, `C94_position_fails`.
- `dab_filltree2`: `end` is the last cell with more than 4 expected trees, but `end - start` leaves this cell out; the 81 degrees of freedom of a default run
  are right up to 3.2e-6: `C94_default`. With at most 112 trees no cell has 4 expected trees, `start` becomes 128 and `end - start` wraps: `C94_few`. The table
  belongs to size 128 and is used for every size (`targetData1`, `targetData2` for 32 and 64 are never read).
* operm5 compares unsigned values as signed ones: `C31_signed`. Its table and its
  96 degrees of freedom are right: the null mean of the statistic is 96 up to
  2.2e-12 and a term 16.47/n: `C86_overlap_mean`.
* bitstream and dna count words in `char`s that wrap at 256 occurrences:
  `C32_bitstream_wraps`, `C45_dna_wraps`; bitstream overruns its buffer for more
  than 8388640 samples: `C32_bitstream_overrun`.
* marsaglia_tsang_gcd keeps a table sized by the first call, and an all-zero
  generator makes it loop forever: `C34_stale_table`, `C34_zeros_loop`.
* diehard_runs loses one of the last runs: `C36_left_out`. The rounding of its
  table and the lost run shift the null mean of the statistic from 6 to
  6.0274 + 11004/n (6.137 for the default): `C89_up_mean`, `C89_default`.
* dab_bytedistrib repeats bytes for narrow generators: `C42_narrow`.
* dab_filltree writes out of bounds for zero draws and for 42 or more cells:
  `C43_filltree_zero_fails`, `C43_filltree_large_fails`. Its rotation is a shift
  by 32 when the rotation amount is 0.
* dab_monobit2: the first block is short and blocks share cells: `C44_first_block`, `C44_shared_cell`.
  With at most 403 words of 32 bits it has no levels and returns the p-value 0, FAILED, for every generator: `C122_few`.
* user_template ignores -x, which its description says sets the lag: `C120_template`. The gorilla test is not a gorilla
  test but lagged sums, and wraps the lag for 0 < |x| < 1: `C120_gorilla`.
* dab_dct: with a 32-bit generator the rotation by 0 places shifts by 32:
  `C73_shift_undefined`; two or three blocks divide by zero: `C73_few_blocks`;
  with 4 to 11 blocks the rotation can exceed the width. `iDCT2` is off by
  len/(len-1) for odd lengths: `C72_inverse`.
* dab_filltree2 writes out of bounds for a tree of size 1 and for ntuple >= 258.
* rgb_minimum_distance accesses coordinates out of bounds beyond 5 dimensions: `C46_dim_fails`. Run by itself (`-d 201`) without
  `-n`, `ntuple` is 0: it draws nothing, and its p-value is 1 - e^(-n(n-1)/2)(1 + n^3/3), practically 1, for every generator:
  `C110_dim0`. With two points the p-value can be negative: `C110_negative`.
* `add_ui_rngs` counts a user generator although the code that adds it is commented out, so `dh_num_rngs` is one too large:
  `C107_counts`; the listing of the generators is headed "Test Name", and a version string of 28 characters makes its title a column too
  wide.
* rgb_permutations overflows from 13 on: `C60_too_large`; with fewer than 5 k!
  samples (for k = 8 with the default 100000) all cells are pooled into one and
  the statistic is always 0: `C88_small`.
* diehard_sums: one sample overruns the vector: `C69_one_sample`; the compiled
  decorrelation line is not the intended one and leaves correlated entries with
  variance above 1 (this explains the remark in the source that the test does
  not work): `C70_correlated`, `C70_intended`.
* The initialisation loops of the rank tests write cell 0 only (harmless).
* sts_serial writes the global `tsamples`.
* diehard_oqso uses the standard deviation of overlapping words, but its words
  do not overlap: the score has variance 0.971: `C83_oqso_score`.
* The count-the-1s tests return a constant p-value for 894 or fewer samples:
  `C85_small`.
- `dab_filltree`: the entries 9 and 10 of the table are wrong by more than 2e-6 (the table is printed with eight digits): `C95_table`. In a default
  run this adds most of the 0.003 by which the mean exceeds the 10 degrees of freedom: `C95_default`. The last cell with more than four expected
  trees is left out here, too. With 1 to 3 trees `j % (tsamples/CYCLES)` is a remainder by zero, and with at most 19 trees `start` is 20 and
  `end - start` wraps: `C95_few`.
- `dab_bytedistrib` with fewer than 1280 samples pools all 2304 cells into one: the statistic is 0 with 2295 degrees of freedom, and the
  p-value is 1 for every generator: `C97_few`.
- `rgb_bitdist` with large tuples or few samples has one cell and no degrees of freedom, with a positive statistic for every generator
  (`gsl_sf_gamma_inc_Q(0,x)` is 0 for positive x): `-n 12 -t 1000`, or the default 100000 samples from `-n 19` on: `C98_degenerate`.
- `evalMostExtreme` runs against the p-values: a level of `dab_monobit2` with a p-value of almost 0 makes the result almost 1 and the reverse
  (`C99_reversed`); the result is not uniform for two or more levels, but small results are not too frequent (`C99_not_uniform`, `C99_tail`).
- `sts_runs` compares the number of changes with `2Np(1-p)` although its mean for the given number of ones is `2Np(1-p)·N/(N-1)`: the
  p-values of a perfect generator are off by `√N/(N-1)` standard deviations, which vanishes for long samples (C101).
- `rgb_lagged_sums` assumes deviates with the mean 1/2, but a generator with `L` values has `1/2 - 1/(2L)`: off by `√(3n)/L` standard
  deviations, harmless for 32-bit generators and fatal for a generator of bytes (C101).
- `diehard_rank_6x8`: a default run leaves out the matrices of rank 2 or less (their pooled cell expects fewer than five); the
  mean is not affected (`C96_rank_6x8`).

Generators
* superkiss exceeds its advertised maximum: `C24_superkiss_out_of_range`.
* superkiss: the xorshift component ends with `xs ^= xs>>5` (rng_superkiss.c:76) where Marsaglia's generator has `xs<<5`; its period
  is 306706140 and not 2^32-1: `C102_superkiss`.
* multicarry: the first number is not on the cycle for some seeds, and a stuck component shortens the period to the other factor:
  `C103_multicarry_first`, `C103_multicarry`.
* super-duper: the Tausworthe component is not primitive; some seeds give `2047·2^30` or `2097151·2^30` instead of about `2^62`:
  `C103_super_duper_seeds`.
* ca ignores its seed argument and depends on the global `seed`: `C26_ca_fails`, `C26_ca_stuck`.
* uvag depends on the bit buffers and overwrites the global `rmax_bits`: `C26_uvag_fails`.
* XOR draws its first generator twice: `C22_fails`.
* aes ignores seed bits from 33 on; threefish changes its tweak after the first block.
* R generators share one state vector: `C55_r_shared`, `C55_r_out_of_bounds`;
  multicarry has seeds for which it is stuck: `C54_multicarry_stuck`.
* file_input: numbers written with `-O 2` do not read back: `C19_float_fails`;
  comments after the header are treated as data; `set_rtot` has no effect.
  A line longer than 1022 characters is cut and its rest is read as the next
  number: `C20_long_line`. The count in the header is read with `atoi`, which
  overflows from 2^31 on; an empty data line leaves the value uninitialised; a
  file that was read exactly k times reports k-1 rewinds.
* `TAOCP2_MAX` in rngs_gnu_r.c has no parentheses around its difference, so the
  product in line 528 subtracts 1 after the multiplication.
* dev_urandom and dev_arandom return `unsigned long` values read as 8 bytes
  while advertising 32 bits.
* file_input_raw: a second raw generator never rewinds (static `first`): `C21_second_fails`.
* `get_double` of the file, stdin and device generators divides by `UINT_MAX`,
  so the "uniform" value can be 1.0.
- `marsaglia_tsang_gcd` never ends on a source of zeros (for instance a file of zeros), and `diehard_craps` can hang on a source that repeats
  itself only from some later point on (C123).
- The birthday tests stop their search for cells at the first cell after 0 that expects at most five samples, which for a large mean is cell 1, far
  below the mean. So with defaults `dab_birthdays1` on a generator of at most 27 bits (and `diehard_birthdays` on one of at most 22) throws all samples
  away that it should look at: the p-value is a constant for all sequences with at least two repeated spacings in every sample. For 24 bits (the
  ranlux family) the mean is 73 and the constant is so near 1 that every such generator fails (C124).
- The final p-value hardly depends on any single sample: one sample of 100 with the p-value 0 moves the distance by at most 1/101 (C126).
- The assessment is taken from the p-value before it is printed, so `0.00500000` can be PASSED or WEAK, and `0.00000100` WEAK or FAILED (C127).
* countx.c: `u4` is 64 bits wide on LP64, so `rot` is no rotation and the generator is not reversible: `C132_not_reversible`. `gather` skips
  BUCKETS words where `terms` - 1 are needed; with more than five terms the first windows are filled up with zeros: `C132_gather`.
* Without /dev/urandom the seed is the sum of seconds and microseconds: starts 0.999999 seconds apart get the same seed (`C133_collide`), and a
  whole day of starts less than 1.1 million different seeds (`C133_few`).
* rngav.c: `report` compares `32-data[i]`, with a sum in `data[i]` where an average is meant, so that it wraps and too many changes of bits are
  never seen, and the Gray code of bit 0 is never looked at (`C136_report`); `1<<31` is undefined for an `int` (`C136_undefined`); the reverse
  generator given in the source rotates by the wrong numbers (`C136_reverse_wrong`).
* dab_filltree: `j % (tsamples/CYCLES) == 0` also holds for the first tree, so that only this tree is filled with unrotated draws: `C158_trees`. With
  32-bit generators its draws are shifted by 32 places: `C158_shift`.
