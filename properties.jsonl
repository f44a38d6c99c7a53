{"id": "C01", "title": "Cyclic n-tuple extraction from a bitstring", "statement": "get_bit_ntuple(bitstring, bslen, blen, boffset) returns the blen-bit number whose bit i is bit (boffset+i) of the bitstring, where the bitstring is read as one cyclic string of bslen*rmax_bits bits, least significant bit of the last word first. Requests wider than 32 bits are served as 32-bit requests.", "quantifier": "every array of words no wider than rmax_bits, every rmax_bits in 1..32, every width 1..32 and every in-range offset", "why_tests_cant": "The wrap-around across words depends on the alignment of offset, width and rmax_bits; the number of combinations times word contents is astronomically large.", "anchors": ["libdieharder/bits.c: get_bit_ntuple"]}
{"id": "C02", "title": "Bit windows mask and move exactly the named bits", "statement": "b_umask(start,stop) has ones exactly at positions start..stop counted from the most significant bit, and b_window(x,start,stop,off) is the word whose position off+k holds bit start+k of x for start+k<=stop and zero elsewhere; a range outside 0..31 or reversed never yields a value (the program exits).", "quantifier": "every 32-bit input and every start, stop, offset as unsigned ints", "why_tests_cant": "2^32 words times every range, including the degenerate ranges that must be refused.", "anchors": ["libdieharder/bits.c: b_umask, b_window"]}
{"id": "C03", "title": "Rotations are rotations", "statement": "b_rotate_left and b_rotate_right return the word rotated by the requested amount, and rotating right undoes rotating left for every amount for which both return; b_rotate_left by 0 does not return.", "quantifier": "every 32-bit word and every shift amount 0..31", "why_tests_cant": "Needs all words and amounts together, and a statement about composition.", "anchors": ["libdieharder/bits.c: b_rotate_left, b_rotate_right"]}
{"id": "C04", "title": "Cyclic n-tuples over word vectors", "statement": "get_ntuple_cyclic(input, ilen, output, jlen, ntuple, offset) leaves in output, right justified and most significant bit first, the ntuple bits starting at bit offset of the cyclic string made of the ilen input words (most significant bit of word 0 first), with everything further left zero; the only requests it does not answer are those for more than 32 bits whose window starts strictly inside a word and ends at a larger bit position of a later word, for which it terminates the program.", "quantifier": "every input vector, every offset (also beyond the end) and every width that fits in output", "why_tests_cant": "The routine selects among seven copy rules by alignment; the wrong rule only shows for some (offset, width) pairs and some data.", "anchors": ["libdieharder/bits.c: get_ntuple_cyclic"]}
{"id": "C05", "title": "get_uint_rand repackages the generator's bits, except where it adds the previous word", "statement": "For a generator of r significant bits, word m returned by successive get_uint_rand calls is the m-th 32-bit segment of the concatenation of the r-bit values, least significant bit first, each bit used once, whenever r is 32, m is 0 or the segment does not begin at a value boundary; when it does (r below 32, m positive and r divides 32m) the word is that segment plus the previously returned word, so that every generator narrower than 32 bits is distorted.", "quantifier": "every generator output sequence, every r in 1..32 and every number of calls", "why_tests_cant": "The buffer state recurs with a period depending on r; loss or reuse happens only at particular calls and only for particular r.", "anchors": ["libdieharder/bits.c: get_uint_rand"]}
{"id": "C06", "title": "get_rand_bits serves consecutive disjoint bit segments", "statement": "Any sequence of requests get_rand_bits(&u, sizeof(u), n_i) with n_i<=32 returns successive, non overlapping n_i-bit segments of one bit stream, so no generator bit is used twice or skipped whatever the interleaving of widths.", "quantifier": "every request history, every underlying word stream", "why_tests_cant": "The circular buffer index, backfill and mask state has unboundedly many histories.", "anchors": ["libdieharder/bits.c: get_rand_bits"]}
{"id": "C07", "title": "get_rand_bits_uint serves consecutive bits, most significant first", "statement": "Any sequence of requests get_rand_bits_uint(n_i, mask, rng) with 1<=n_i<=32 and n_i different from the generator width returns successive segments of the most-significant-first concatenation of the generator's values; widths equal to the generator width bypass the buffer and return the next whole value without disturbing buffered bits.", "quantifier": "every generator output sequence, width 1..32 and history of requests", "why_tests_cant": "State (leftover bits, refill loop count) depends on the entire request history.", "anchors": ["libdieharder/static_get_bits.c: get_rand_bits_uint"]}
{"id": "C08", "title": "Single-word cyclic tuples", "statement": "get_bit_ntuple_from_uint(x, n, mask, off) returns bits off, off+1, ..., off+n-1 of x cyclically modulo the generator width, and get_bit_ntuple_from_whole_uint the same modulo 32.", "quantifier": "every word, width 1..32, offset inside the word, and generator width 1..32", "why_tests_cant": "All words times all alignments.", "anchors": ["libdieharder/static_get_bits.c: get_bit_ntuple_from_uint, get_bit_ntuple_from_whole_uint"]}
{"id": "C09", "title": "Resetting the bit buffers makes results reproducible", "statement": "After reset_bit_buffers() the bits handed out by get_uint_rand and get_rand_bits depend only on what the generator produces from then on, not on any earlier request; without the reset they can depend on it.", "quantifier": "every history of requests before the reset and every generator stream after it", "why_tests_cant": "It is a statement about two arbitrary histories.", "anchors": ["libdieharder/bits.c: reset_bit_buffers, get_uint_rand, get_rand_bits", "dieharder/run_test.c: execute_test"]}
{"id": "C10", "title": "binary_rank computes the rank over GF(2)", "statement": "binary_rank(mtx, mrows, ncols) returns the rank over the two element field of the mrows x ncols bit matrix (column j is bit j of a row's word, least significant first) for up to 32 columns; for every size the result is between 0 and min(mrows, ncols), but with more than 32 columns it need not be the rank.", "quantifier": "every number of rows and every content; the rank for up to 32 columns, the range for every size", "why_tests_cant": "2^1024 matrices for the 32x32 case alone; a pivoting error affects only rank-deficient patterns.", "anchors": ["libdieharder/rank.c: binary_rank"]}
{"id": "C11", "title": "Test sample storage is never overrun", "statement": "However create_test, clear_test and std_test are sequenced for one test, every p-value is stored inside the array create_test allocated, provided an adaptive strategy is selected, or psamples is at least Xoff, or no two std_test calls follow each other without a clear_test; in the remaining case, once the first summary p-value is positive, the second std_test writes past the end of the array.", "quantifier": "every history of std_test/clear_test calls, every setting of psamples, Xoff, multiply_p and Xtrategy", "why_tests_cant": "The sample count grows over calls; the overrun needs a particular history length relative to the cutoff.", "anchors": ["libdieharder/std_test.c: create_test, clear_test, add_2_test, std_test"]}
{"id": "C12", "title": "Sample accounting of std_test", "statement": "The first std_test after create/clear produces exactly the requested number of p-values (at most the cutoff Xoff) and each later call adds Xstep more (never beyond Xoff); earlier p-values are kept and the summary p-value is computed from all of them. The exception: when no summary p-value is positive the next call starts over.", "quantifier": "every call history and every sequence of p-values the test function returns", "why_tests_cant": "First-call detection inspects a computed p-value, so the behaviour depends on data produced by the test itself.", "anchors": ["libdieharder/std_test.c: add_2_test, std_test"]}
{"id": "C13", "title": "Adaptive test execution terminates with the promised verdict", "statement": "With the 'resolve ambiguity' or 'test to destruction' strategies and a positive failure threshold and step, running one test ends after finitely many additions: it stops only when the summary p-value is no longer ambiguous (respectively is a failure) or the sample cutoff is reached. With a failure threshold of 0 it may run forever.", "quantifier": "every sequence of p-values the test may produce and every Xstep, Xoff, Xweak, Xfail", "why_tests_cant": "Termination and the stop condition are claims over unbounded executions.", "anchors": ["dieharder/run_test.c: execute_test"]}
{"id": "C14", "title": "Assessment is total, exclusive and agrees with the thresholds", "statement": "Every summary p-value is reported as exactly one of PASSED, WEAK, FAILED: FAILED iff p<Xfail or p>1-Xfail, WEAK iff not failed and p<Xweak or p>1-Xweak, PASSED otherwise; a stricter p never gets a better grade, and p and 1-p are graded alike.", "quantifier": "every p-value and every pair of thresholds", "why_tests_cant": "Real-valued input with boundary ties.", "anchors": ["dieharder/output.c: output, output_table_line"]}
{"id": "C15", "title": "Sample sizes follow the documented precedence", "statement": "create_test uses the test's default sample sizes when running all tests or when the user gave none, the user's otherwise, scales default psamples by multiply_p but never below one, and sizes the p-value array to hold the larger of psamples and the cutoff when a strategy is in force.", "quantifier": "every combination of option values", "why_tests_cant": "Product of option values is unbounded.", "anchors": ["libdieharder/std_test.c: create_test, clear_test"]}
{"id": "C16", "title": "Tail pooling in the chi-square evaluation conserves mass", "statement": "Vtest_eval's statistic is the Pearson sum over the cells with expectation at or above the cutoff plus one pooled tail cell; the pooled cell holds exactly the total observed and total expected of the remaining cells, the statistic is non-negative, and the degrees of freedom are one less than the number of cells used unless preset.", "quantifier": "every number of cells, every observed/expected vector and cutoff", "why_tests_cant": "Arbitrary vectors; pooling makes order matter.", "anchors": ["libdieharder/Vtest.c: Vtest_create, Vtest_eval"]}
{"id": "C17", "title": "The KS statistic does not depend on sample order", "statement": "kstest's result is unchanged by permuting its samples, it returns -1 for no samples, the sample itself for one, and otherwise a statistic between 0 and 1 for samples in [0,1].", "quantifier": "every list of samples and every permutation", "why_tests_cant": "n! permutations of real vectors.", "anchors": ["libdieharder/kstest.c: kstest"]}
{"id": "C18", "title": "Matrix power used by the exact KS distribution", "statement": "mPower(A, V, m, n) leaves in V (scaled by 10^exponent) the n-th power of the m x m matrix A for every n>=1; the number of multiplications is finite.", "quantifier": "every matrix, dimension and exponent", "why_tests_cant": "Unbounded exponent and dimension; recursion by squaring.", "anchors": ["libdieharder/kstest.c: mMultiply, mPower"]}
{"id": "C19", "title": "Saved random numbers read back unchanged (ASCII)", "statement": "A file of 1 to 2^31-1 values written by dieharder's unsigned-integer output mode (-O 1) and then used as file_input yields exactly the numbers that were written, in order. A file written in floating point mode (-O 2) does not: numbers of the unit interval read back as 0, or as 2^32-1 when the printed digits are those of 1.", "quantifier": "every sequence of 32-bit values of every length", "why_tests_cant": "Round trip over all sequences, including header parsing and line splitting.", "anchors": ["dieharder/output_rnds.c: output_rnds", "libdieharder/rng_file_input.c: file_input_set, file_input_get", "libdieharder/parse.c: split, chop"]}
{"id": "C20", "title": "ASCII file input delivers the file cyclically and counts rewinds", "statement": "Draw k since the last seeding with a nonzero value returns value k mod n of a file with n values and a well-formed header, where a value is a decimal, octal or hexadecimal number (by the type letter) with an optional sign and an optional 0x; seeding with zero changes nothing; rtot counts those draws; the reported rewind count is (k-1)/n after k draws, the number of passes completed and gone beyond (a file that was read exactly once is not reported as rewound). A line of 1023 characters or more is cut after 1023 characters and its rest is taken for the next value; a header line that has not exactly two fields ends the program.", "quantifier": "every file length and every number of draws, across reseeding", "why_tests_cant": "Unbounded draw sequences and rewind boundaries.", "anchors": ["libdieharder/rng_file_input.c: file_input_get, file_input_set, file_input_get_rewind_cnt, file_input_get_rtot"]}
{"id": "C21", "title": "Raw file input delivers the file's words cyclically and counts rewinds", "statement": "For the first raw generator of a process, draw k since the last seeding with a nonzero value returns 32-bit word k mod (size/4) of the file, trailing bytes that do not fill a word are never delivered, and the reported rewind count is (k-1)/(size/4); files shorter than 16 words are refused. Binary output of at least 16 values read back this way returns the written numbers. A second raw generator in the process never rewinds: it delivers the words once and the program exits.", "quantifier": "every file size and content and every number of draws", "why_tests_cant": "Boundary behaviour at end of file for each size and draw count.", "anchors": ["libdieharder/rng_file_input_raw.c: file_input_raw_get, file_input_raw_set", "dieharder/output_rnds.c: output_rnds"]}
{"id": "C22", "title": "The XOR super-generator draws its first generator twice", "statement": "Each value drawn from the XOR generator is the exclusive or of one fresh value from every selected generator and of one more value of the first selected one, which advances by two while the others advance by one; the seeding generator is not drawn, and with no generator selected an uninitialised entry is used. Hence the value is not the exclusive or of one value from each.", "quantifier": "every number of generators and every state", "why_tests_cant": "Needs the joint history of arbitrarily many generators.", "anchors": ["libdieharder/rng_XOR.c: XOR_get, XOR_set"]}
{"id": "C23", "title": "KISS never degenerates", "statement": "From any seed the kiss generator keeps its xorshift component nonzero and its multiply-with-carry arithmetic within its machine words, and distinct states give distinct successor states of the xorshift and congruential components.", "quantifier": "every seed and every number of draws", "why_tests_cant": "State space 2^128, unbounded draws.", "anchors": ["libdieharder/rng_kiss.c: kiss_get, kiss_set"]}
{"id": "C24", "title": "Generators and their advertised range", "statement": "The R generators return only values between the minimum and maximum they advertise, from every seed, for every number of draws and every rounding of their double arithmetic. superkiss does not: from every seed it returns values above its advertised maximum UINT_MAX, though never above the stated bound.", "quantifier": "every seed and every number of draws of superkiss and the R generators (kiss, ca, uvag, aes, threefish and XOR return an unsigned int and advertise 0..UINT_MAX)", "why_tests_cant": "A single out of range value in 2^64 states suffices to break it.", "anchors": ["libdieharder/rng_superkiss.c: superkiss_get", "libdieharder/rng_kiss.c", "libdieharder/rng_ca.c: ca_get", "libdieharder/rng_uvag.c: uvag_get", "libdieharder/rng_aes.c: aes_get", "libdieharder/rng_dev_urandom.c"]}
{"id": "C25", "title": "Generator tables stay in bounds and outputs follow their recurrences", "statement": "superkiss, ca and uvag never read or write outside their state tables and refill exactly when the table is exhausted. kiss returns the sums modulo 2^32 of its congruential, xorshift and multiply-with-carry sequences; ca returns the words of the automaton that starts from the configuration made of the seed.", "quantifier": "every seed and number of draws", "why_tests_cant": "Index arithmetic over unbounded histories.", "anchors": ["libdieharder/rng_superkiss.c", "libdieharder/rng_ca.c: ca_get", "libdieharder/rng_uvag.c: uvag_get"]}
{"id": "C26", "title": "What determines the stream after seeding", "statement": "Seeding aes, threefish or an R generator with the seed argument alone determines the stream, whatever was drawn before. Seeding ca does not: the argument is ignored, the configuration is made of the global seed, which each seeding increments, so that the next seeding gives a different stream unless the global is 0xFFFFFFFF. Seeding uvag does not either: its key continues from bits left in the bit buffers by earlier users, and is determined by the seed only after those buffers are reset.", "quantifier": "every seed and every earlier history of ca, uvag, aes, threefish and the R family", "why_tests_cant": "Two-history (hyper) property.", "anchors": ["libdieharder/rng_ca.c: ca_set", "libdieharder/rng_uvag.c: uvag_set", "libdieharder/rng_aes.c: aes_set", "libdieharder/rng_threefish.c: threefish_set", "libdieharder/rngs_gnu_r.c: RNG_Init"]}
{"id": "C27", "title": "The aes generator is AES-128 in output feedback mode", "statement": "The aes generator's outputs are the 32-bit words of E_K(B), E_K(E_K(B)), ... where K is the key derived from the seed, B the initial block and E_K the AES-128 cipher; every block is fully used before the next one is produced.", "quantifier": "every seed and number of draws", "why_tests_cant": "Refinement to an external standard for all keys and blocks.", "anchors": ["libdieharder/rng_aes.c: aes_get, aes_set", "libdieharder/rijndael-alg-fst.c: rijndaelEncrypt, rijndaelKeySetupEnc"]}
{"id": "C28", "title": "The table-driven cipher is AES", "statement": "rijndaelKeySetupEnc followed by rijndaelEncrypt computes exactly the AES-128 block cipher as the standard defines it (SubBytes, ShiftRows, MixColumns, AddRoundKey over GF(2^8)).", "quantifier": "every key and every plaintext block", "why_tests_cant": "2^256 inputs; one wrong table entry out of 1280 escapes most vectors.", "anchors": ["libdieharder/rijndael-alg-fst.c: rijndaelKeySetupEnc, rijndaelEncrypt, Te0..Te4, rcon"]}
{"id": "C29", "title": "The block ciphers behind the aes and threefish generators are permutations", "statement": "For a fixed key the block transformation of the aes generator and of the threefish generator is injective, so two different internal blocks never merge.", "quantifier": "every key and every pair of blocks", "why_tests_cant": "Injectivity over 2^128 / 2^512 blocks.", "anchors": ["libdieharder/rijndael-alg-fst.c: rijndaelEncrypt", "libdieharder/skein_block64.c: Threefish_512_Process_Blocks64"]}
{"id": "C30", "title": "Birthday spacing duplicates are counted correctly", "statement": "For each sample the birthdays tests compute the spacings of the sorted birthdays and count the spacing values that occur more than once. The count never exceeds the true number; it equals it if the largest spacing occurs once and no spacing value occurring exactly twice directly follows (in order of size) one occurring more than once; the exact result is determined by the numbers of occurrences in increasing order of the spacings. If the largest spacing is to be counted as repeated, the loop reads one element beyond the computed spacings.", "quantifier": "every multiset of birthdays and every size", "why_tests_cant": "The miscounting depends on adjacency of repeated groups in the sorted list.", "anchors": ["libdieharder/diehard_birthdays.c: diehard_birthdays", "libdieharder/dab_birthdays1.c: dab_birthdays1"]}
{"id": "C31", "title": "Order patterns of five numbers are indexed faithfully", "statement": "The overlapping permutations test maps two 5-tuples of distinct numbers to the same cell iff they have the same relative order, where numbers are compared as the signed 32-bit integers into which the code copies them; it uses all 120 cells, and step t's tuple is the five consecutive draws t..t+4 (or the next five unused draws when samples do not overlap). For values of at least 2^31 the order is not the unsigned order.", "quantifier": "every 5-tuple of 32-bit values and every draw sequence", "why_tests_cant": "2^160 tuples.", "anchors": ["libdieharder/diehard_operm5.c: kperm, diehard_operm5"]}
{"id": "C32", "title": "Bitstream test windows and counts", "statement": "The bitstream test examines, for sample t, the 20 consecutive bits of its buffer starting at bit t+8, each window one bit after the previous one, and reports the number of 20-bit words whose number of occurrences is a multiple of 256 (its counters are bytes): the number of missing words when no word occurs 256 times, otherwise too many. It stays inside its buffer exactly when there are at most 8388640 samples.", "quantifier": "every bit stream and sample count", "why_tests_cant": "Counter wrap and buffer end depend on frequencies and lengths no sample run explores.", "anchors": ["libdieharder/diehard_bitstream.c: diehard_bitstream"]}
{"id": "C33", "title": "Count-the-1s letters and words", "statement": "A byte is mapped to letter 0..4 according to its number of ones (<=2,3,4,5,>=6), letter probabilities are the exact proportions of bytes, and the word counted at each step is the last five (four) letters in base five.", "quantifier": "all 256 bytes and every letter sequence of any length", "why_tests_cant": "The rolling index must be right after arbitrarily long histories.", "anchors": ["libdieharder/diehard_count_1s_stream.c", "libdieharder/diehard_count_1s_byte.c"]}
{"id": "C34", "title": "The gcd test computes gcds and step counts", "statement": "For each pair of nonzero numbers the Marsaglia-Tsang gcd test obtains their greatest common divisor and the number of Euclidean division steps, and every tally index is inside its table, as long as the static table was not allocated with size zero by an earlier call with very few samples.", "quantifier": "every pair of nonzero 32-bit values", "why_tests_cant": "2^64 pairs; the loop length varies.", "anchors": ["libdieharder/marsaglia_tsang_gcd.c: marsaglia_tsang_gcd"]}
{"id": "C35", "title": "Craps probabilities match the rules of craps", "statement": "The expected win probability and the expected distribution of the number of throws used by the craps test are those of the game it simulates; every throw count is tallied in 21 classes and each game contributes exactly one.", "quantifier": "every dice sequence and every throw count class", "why_tests_cant": "Infinite series over unbounded games.", "anchors": ["libdieharder/diehard_craps.c: diehard_craps, roll"]}
{"id": "C36", "title": "Runs are all counted", "statement": "The runs test classifies the maximal ascending and descending runs of the sequence by length (six or more together), never tallies outside its six classes, and tallies all of them except one: the last ascending run if the last draw exceeds the first draw, the last descending run otherwise. The number of tallied runs equals the number of draws.", "quantifier": "every sequence of draws of every length", "why_tests_cant": "Boundary treatment at the wrap from last to first element depends on the data.", "anchors": ["libdieharder/diehard_runs.c: diehard_runs"]}
{"id": "C37", "title": "Squeeze tallies are conserved", "statement": "Each squeeze trial ends after at most 48 steps and adds exactly one to one of the 43 cells.", "quantifier": "every sequence of uniform deviates and every sample count", "why_tests_cant": "Real-valued unbounded inputs.", "anchors": ["libdieharder/diehard_squeeze.c: diehard_squeeze"]}
{"id": "C38", "title": "Monobit counts ones", "statement": "The bit trick in the monobit test returns the number of one bits of a word, and the total over the sample is the number of ones in all words drawn.", "quantifier": "every 32-bit word and every sample", "why_tests_cant": "2^32 words, arbitrary samples, overflow of counters.", "anchors": ["libdieharder/sts_monobit.c: sts_monobit"]}
{"id": "C39", "title": "STS runs statistic", "statement": "The STS runs test's statistic is the number of positions of the cyclic bit string where a bit differs from its successor, and its normalisation uses the number of ones of the same string.", "quantifier": "every word sequence", "why_tests_cant": "All strings of all lengths.", "anchors": ["libdieharder/sts_runs.c: sts_runs"]}
{"id": "C40", "title": "STS serial counts every window of every width", "statement": "For each width m up to the maximum the serial test's frequency table holds, for every m-bit pattern, the number of cyclic positions of the bit string at which that pattern occurs; each table sums to the number of bits.", "quantifier": "every word sequence, width and pattern", "why_tests_cant": "All strings of all lengths.", "anchors": ["libdieharder/sts_serial.c: sts_serial"]}
{"id": "C41", "title": "Bit distribution tallies are conserved", "statement": "The bit distribution test tallies every one of the n-tuples of each word exactly once; the tally over all counts equals the number of samples for each tuple value.", "quantifier": "every word sequence and tuple width", "why_tests_cant": "Arbitrary samples.", "anchors": ["libdieharder/rgb_bitdist.c: rgb_bitdist"]}
{"id": "C42", "title": "Byte distribution samples the promised byte positions", "statement": "For a generator of r bits the byte distribution test samples the lowest byte, the byte at offset (r-8)/2 and the highest byte of each word, tallying each inside the 2304-cell table.", "quantifier": "every word and every r in 8..32", "why_tests_cant": "All words, all widths, running-shift arithmetic.", "anchors": ["libdieharder/dab_bytedistrib.c: dab_bytedistrib"]}
{"id": "C43", "title": "Fill-tree tests stay inside their tables", "statement": "Whatever bits the generator delivers, dab_filltree2 (2 to 255 cells, 128 by default) accesses only its tree, count and position tables, and every path either marks exactly the first unmarked node on it or reports the end of a fully marked path. The same holds for insertion in dab_filltree (2 to 41 cells, 32 by default) for every generator that never delivers the value 0; a delivered 0 leaves its node empty and can lead to an access beyond the 20 entries of the count table, and so do trees of 42 or more cells.", "quantifier": "every sequence of draws and every tree size option", "why_tests_cant": "Overruns need special draw values (zeros) or option values.", "anchors": ["libdieharder/dab_filltree.c: dab_filltree, insert", "libdieharder/dab_filltree2.c: dab_filltree2, insertBit"]}
{"id": "C44", "title": "Monobit2 blocks and cells", "statement": "For each level j the monobit2 test tallies the number of ones of consecutive blocks of words ending at words 2^j, 3*2^j, 5*2^j, ...: blocks of 2^(j+1) words, except that the first has 2^j+1. The tally with o ones at level j goes to cell r(2^(j+1)-1)+o, so that the all-ones cell of one level is the all-zeros cell of the next; every cell is the sum of the tallies that belong to it and all cells are inside the table.", "quantifier": "every word sequence and number of levels", "why_tests_cant": "Cell collisions occur only for extreme counts.", "anchors": ["libdieharder/dab_monobit2.c: dab_monobit2"]}
{"id": "C45", "title": "Missing-word counts are exact", "statement": "The opso, oqso and opso2 tests report exactly the number of words of their alphabet that never occurred among the words examined. The dna test, whose counters are bytes, reports the number of words whose number of occurrences is a multiple of 256: the missing words if no word occurs 256 times, otherwise possibly more.", "quantifier": "every sequence of draws", "why_tests_cant": "Counter wrap-around depends on word frequencies.", "anchors": ["libdieharder/diehard_opso.c", "libdieharder/diehard_oqso.c", "libdieharder/diehard_dna.c", "libdieharder/dab_opso2.c"]}
{"id": "C46", "title": "Minimum distance search is exact", "statement": "The pruned search over points sorted by first coordinate used by the minimum distance tests returns the true minimum pairwise distance (or the initial cap if none is smaller).", "quantifier": "every finite set of points in every supported dimension", "why_tests_cant": "Pruning errors appear only for special configurations.", "anchors": ["libdieharder/diehard_2dsphere.c", "libdieharder/rgb_minimum_distance.c"]}
{"id": "C47", "title": "Parked cars never overlap", "statement": "In the parking lot test the accepted cars are pairwise non-crashing, each rejected attempt crashes with an accepted car, and the number parked never exceeds the 12000 attempts or the coordinate arrays.", "quantifier": "every sequence of attempts", "why_tests_cant": "Invariant over unbounded sequences of real points.", "anchors": ["libdieharder/diehard_parking_lot.c: diehard_parking_lot"]}
{"id": "C48", "title": "Persistence mask shows exactly the stuck bits", "statement": "The persist test's cumulative mask has a one exactly at the bit positions that stayed constant throughout at least one sample of 256 values.", "quantifier": "every sequence of draws and number of samples", "why_tests_cant": "All words in all samples.", "anchors": ["libdieharder/rgb_persist.c: rgb_persist"]}
{"id": "C49", "title": "Output field selection", "statement": "Each -D option naming (or numbering) one of the first 17 report fields that is off switches on exactly that field, whatever the order of the options; unknown names are refused; '-D default' selects the default report, to which further fields can be added. Naming a field that is already on switches it off, and the documented field file_rng_stat is refused.", "quantifier": "every sequence of -D options", "why_tests_cant": "Combinations and repetitions of options are unbounded.", "anchors": ["dieharder/parsecl.c: parsecl", "dieharder/output.h"]}
{"id": "C50", "title": "The generator's bit width is derived correctly", "statement": "The number of bits per draw that the tests assume is the number of binary digits of the generator's advertised maximum (the least r with maximum < 2^r), and the mask has exactly that many low bits set.", "quantifier": "every advertised maximum below 2^32", "why_tests_cant": "All 2^32 maxima.", "anchors": ["dieharder/choose_rng.c: select_rng"]}
{"id": "C51", "title": "Running all tests runs each once per parameter", "statement": "dieharder -a runs every registered test exactly once for each of its parameter values (a range for tests 200 to 203 unless -n is given, out-of-range -n values replaced by 5 for tests 201 and 202), in the order of the test numbers and parameters, and nothing else.", "quantifier": "every table of tests", "why_tests_cant": "Coverage claim over the whole table and the parameter loops.", "anchors": ["dieharder/run_all_tests.c: run_all_tests", "libdieharder/dieharder_test_types.c"]}
{"id": "C52", "title": "Line splitting", "statement": "split(line) returns the number of maximal runs of non-delimiter characters of the line, but at most 1023, and stores that many of them in order, each cut to 128 characters: for lines of at most 1023 fields of fewer than 128 characters the stored strings are exactly the fields, and a field of 128 characters or more is stored without a terminator. chop removes the last character, whatever it is, and is undefined on an empty string.", "quantifier": "every input line", "why_tests_cant": "Arbitrary strings, including empty, all-delimiter and over-long ones.", "anchors": ["libdieharder/parse.c: split, chop"]}
{"id": "C53", "title": "Histogram counts every sample once", "statement": "The p-value histogram over [0,max] assigns every value to exactly the bin whose interval contains it, with out-of-range values in the end bins, so that bin counts add up to the number of values, and scales by the largest bin.", "quantifier": "every list of values and bin count", "why_tests_cant": "Arbitrary real values on bin boundaries.", "anchors": ["libdieharder/histogram.c: histogram"]}
{"id": "C54", "title": "The R generators never degenerate", "statement": "After seeding, the Wichmann-Hill and super-duper generators keep every component in the range their theory needs (nonzero residues, nonzero shift register, odd congruential part) for ever, their products fit their integers, and the n-th draw is the textbook function of the seeding words; multicarry keeps both components nonzero, and one of its components stops moving exactly when it starts on a multiple of its modulus (36969*2^16-1 or 18000*2^16-1), which some seeds cause. In exact arithmetic the Wichmann-Hill number is the fractional part of the sum of the three quotients (a tiny positive number where that is zero), and the number made of a word is within 2^-32 of its quotient by 2^32-1, 2^32 or 2^30.", "quantifier": "every seed and every number of draws", "why_tests_cant": "Unbounded histories, 2^64..2^96 states.", "anchors": ["libdieharder/rngs_gnu_r.c: unif_rand, FixupSeeds, RNG_Init"]}
{"id": "C55", "title": "Generator instances and interleaved draws", "statement": "Instances of kiss, superkiss, AES_OFB and Threefish_OFB do not disturb each other: in every interleaving each produces what it produces alone. Instances of the R generators do: two instances of one kind deal out the single stream of the instance seeded last, and a Mersenne Twister instance reads outside its array once a multicarry instance has been seeded with a seed whose first word is at least 2^31.", "quantifier": "every pair of dieharder-supplied generators and every interleaving of draws", "why_tests_cant": "Interleavings are unbounded.", "anchors": ["libdieharder/rngs_gnu_r.c: RNG_Table, dummyvec, r_rng_set, r_rng_get", "libdieharder/rng_kiss.c", "libdieharder/rng_superkiss.c", "libdieharder/rng_aes.c", "libdieharder/rng_threefish.c"]}
{"id": "C56", "title": "Lagged sums use every (lag+1)-th draw", "statement": "The lagged sums test adds the draws at positions lag, 2*lag+1, 3*lag+2, ... and no others.", "quantifier": "every lag and sample count and every draw sequence", "why_tests_cant": "Unbounded lags and lengths.", "anchors": ["libdieharder/rgb_lagged_sums.c: rgb_lagged_sums"]}
{"id": "C57", "title": "ASCII bit strings convert faithfully", "statement": "bit2uint is the inverse of printing a word's bits most significant first, for every width up to 32.", "quantifier": "every width and value", "why_tests_cant": "All words and widths.", "anchors": ["libdieharder/bits.c: bit2uint, dumpbits"]}
{"id": "C58", "title": "Bit access and one-bit cycling of a bitstring", "statement": "Where converting 2^31 to int yields 0x80000000 (x86), get_bit(data, n) is bit n of the bitstring (most significant of word 0 first) for every index inside the string; where it saturates the result is wrong. get_int_bit is bit n for n up to 31, exits above 32 and is undefined at 32. cycle(data, n) rotates the low n bits by one and clears the others, so n cycles restore the low n bits.", "quantifier": "every bitstring and index", "why_tests_cant": "All strings.", "anchors": ["libdieharder/bits.c: get_bit, cycle, get_int_bit"]}
{"id": "C59", "title": "Filling a word buffer from a narrow generator", "statement": "fill_uint_buffer makes each word of the low r bits of one draw followed by the low 32-r bits of the next, two draws per word, inside the buffer. So it uses each bit once exactly for r = 16; for wider generators bits are lost and for narrower ones bits r..31-r of every word are zero.", "quantifier": "every generator width and buffer length", "why_tests_cant": "Alignment state over arbitrary lengths.", "anchors": ["libdieharder/bits.c: fill_uint_buffer"]}
{"id": "C60", "title": "Permutation indexing of n-tuples", "statement": "The permutations test assigns a cell in 0..k!-1 to every k-tuple, and tuples of distinct values get the same cell iff they have the same relative order.", "quantifier": "every k and tuple", "why_tests_cant": "Unbounded k and tuples.", "anchors": ["libdieharder/rgb_permutations.c: rgb_permutations"]}
{"id": "C61", "title": "The threefish block routines compute Threefish-512", "statement": "Both block routines the library carries for Threefish (the unrolled one used by the generator and the reference one) compute the Threefish-512 block cipher as its definition describes it (72 rounds of MIX and word permutation with a subkey added every four rounds), and therefore agree with each other.", "quantifier": "every key, tweak and block", "why_tests_cant": "A few known-answer vectors exercise a vanishing fraction of 512-bit keys and blocks; a wrong rotation or subkey index can hide behind them only statistically, and no vector for this version of the constants is in the tree.", "anchors": ["libdieharder/skein_block64.c", "libdieharder/skein_block_ref.c"]}
{"id": "C62", "title": "Rijndael decryption undoes encryption", "statement": "For each of the three key sizes, decrypting with the decryption key schedule what was encrypted with the encryption key schedule returns the original block.", "quantifier": "every key of 128, 192 or 256 bits and every block", "why_tests_cant": "The space of keys and blocks cannot be sampled meaningfully; an error in one entry of a decryption table shows up only for some bytes in some rounds.", "anchors": ["libdieharder/rijndael-alg-fst.c"]}
{"id": "C63", "title": "Distinct 32-bit seeds give the aes generator distinct keys", "statement": "The key the aes generator derives from its seed is determined by, and determines, the low 33 bits of the seed.", "quantifier": "every pair of seeds", "why_tests_cant": "2^64 pairs of 32-bit seeds.", "anchors": ["libdieharder/rng_aes.c"]}
{"id": "C64", "title": "The threefish generator is Threefish-512 in output feedback mode and never merges seeds", "statement": "The threefish generator's outputs are the consecutive 32-bit words of successive encryptions, starting from the encryption of the seed; different seeds give different output in every group of sixteen draws.", "quantifier": "every seed, every pair of seeds, every number of draws", "why_tests_cant": "Output streams are unbounded and the number of pairs of seeds is 2^128.", "anchors": ["libdieharder/rng_threefish.c"]}
{"id": "C65", "title": "R's Mersenne Twister is MT19937", "statement": "The words behind the draws of the R Mersenne Twister generator are the tempered terms x(624), x(625), ... of the MT19937 recurrence x(k+624) = x(k+397) xor twist(upper bit of x(k), lower 31 bits of x(k+1)), started from 624 consecutive terms of the seeding congruential generator.", "quantifier": "every seed, every number of draws, every earlier content of the shared array", "why_tests_cant": "The stream is unbounded; a test sees a few blocks of 624 words from a few seeds.", "anchors": ["libdieharder/rngs_gnu_r.c: MT_genrand, RNG_Init, FixupSeeds"]}
{"id": "C66", "title": "Knuth's lagged Fibonacci generators follow their recurrence", "statement": "The R Knuth TAOCP generators draw the first 100 words of every block of 1009 terms of a sequence with x(k+100) = x(k) - x(k+63) mod 2^30; all terms are below 2^30 and every window of 100 consecutive terms contains an odd term (so the maximal period applies).", "quantifier": "every seed, every number of draws, every earlier content of the shared array", "why_tests_cant": "The claim is about the whole infinite sequence and every seed.", "anchors": ["libdieharder/rngs_gnu_r.c: ran_array, ran_start, KT_next, RNG_Init_KT2"]}
{"id": "C67", "title": "The rank tests tally true GF(2) ranks", "statement": "For every generator with r-bit outputs (1 <= r <= 32) the 32x32 rank test counts, for each run of consecutive 32-bit groups of the generator's bit stream, the rank over GF(2) of the 32x32 matrix they form, with ranks up to 29 pooled; the 6x8 test does the same with the last eight bits of six consecutive groups, ranks up to 2 pooled. Every sample matrix is counted in exactly one cell.", "quantifier": "every generator width, every bit stream, every number of samples", "why_tests_cant": "The set of matrices and streams is astronomically large; the cell a matrix ends up in is a semantic fact about elimination.", "anchors": ["libdieharder/diehard_rank_32x32.c: diehard_rank_32x32", "libdieharder/diehard_rank_6x8.c: diehard_rank_6x8", "libdieharder/rank.c: binary_rank"]}
{"id": "C68", "title": "The rank tests expect the true rank distribution", "statement": "The cell probabilities of the two rank tests are the probabilities that a uniformly random 32x32 (6x8) matrix over GF(2) has the given (pooled) rank, correctly rounded to the number of digits written in the source.", "quantifier": "every cell of both tests; the probability is over all matrices", "why_tests_cant": "There are 2^1024 matrices; the distribution can only be derived, not enumerated.", "anchors": ["libdieharder/diehard_rank_32x32.c", "libdieharder/diehard_rank_6x8.c"]}
{"id": "C69", "title": "The sums test hands the normalised sliding sums to the KS test", "statement": "For m >= 2 samples diehard_sums stays inside its buffers, uses 2m-1 draws and evaluates the KS test on Phi(z_t), where z_t is the documented linear combination of the scaled sums of m consecutive draws starting at draw t; with fewer than two samples it writes outside its vector.", "quantifier": "every sequence of draws, every m", "why_tests_cant": "Every m and every real sequence of draws; out-of-bounds accesses need not fail visibly.", "anchors": ["libdieharder/diehard_sums.c: diehard_sums"]}
{"id": "C70", "title": "The decorrelation of the sums test is wrong from the fourth entry on", "statement": "For independent uniform draws, the transformation that uses the first window sum (the commented-out line) makes the transformed sums uncorrelated with variance one; the transformation that is compiled uses the window sum two places back instead, so that from the fourth entry on each entry is negatively correlated with the first and has variance 1 + (t-2)/(a(a-1)) > 1, a = 2m+1-t.", "quantifier": "every m, every index, every probability space carrying independent uniform draws", "why_tests_cant": "Covariances are integrals over all draws; the deviation is too small to see in a sample.", "anchors": ["libdieharder/diehard_sums.c: diehard_sums"]}
{"id": "C71", "title": "The 3d spheres test uses the smallest distance of two points", "statement": "For draws in the unit interval the 3d spheres test turns three consecutive draws into each point of a cube of side 1000 and returns 1 - exp(-d^3/30), where d is the smallest distance of any two of the points; this lies in [0,1).", "quantifier": "every sequence of draws, every number of points from two on (the code uses 4000)", "why_tests_cant": "Real-valued coordinates and about eight million pairs per run.", "anchors": ["libdieharder/diehard_3dsphere.c: diehard_3dsphere"]}
{"id": "C72", "title": "The DCT via FFT is the type II discrete cosine transform", "statement": "fDCT2_fft returns the coefficients sum_j x_j cos(pi k (2j+1)/(2 len)) of its input for every length that is a power of two or at most 4, and the program aborts for every other length; iDCT2 is the inverse of the transform for every even length, and for an odd length from 3 on returns the input times len/(len-1).", "quantifier": "every input vector, every length", "why_tests_cant": "All lengths and all real inputs; the agreement is a trigonometric identity.", "anchors": ["libdieharder/dab_dct.c: fDCT2_fft, iDCT2"]}
{"id": "C73", "title": "The DCT test counts the first peaks of the rotated blocks", "statement": "For a generator with r-bit outputs and at least 12 blocks dab_dct transforms consecutive blocks of draws, rotated within r bits by j/(tsamples/4) quarters of the width, and evaluates the chi-square of the position of the first coefficient of largest absolute value (constant coefficient centred and divided by sqrt 2) against equal expectation; with at most 5*len blocks it evaluates the KS test of the normalised coefficients instead. For a 32-bit generator the first rotation shifts by 32 (undefined by the language); with two or three blocks it divides by zero.", "quantifier": "every generator, width, length and number of blocks", "why_tests_cant": "The test statistic is a function of the whole input stream; undefined shifts look fine on common hardware.", "anchors": ["libdieharder/dab_dct.c: main_dab_dct, dab_dct", "libdieharder/chisq.c: chisq_pearson"]}
{"id": "C74", "title": "The DCT coefficients have the mean and the variance the test assumes", "statement": "For independent uniform r-bit words the adjusted DCT coefficients have mean 0, are pairwise uncorrelated and all have variance N(4^r-1)/24, which is the square of the standard deviation in the source up to the factor 1-4^-r.", "quantifier": "every width, block length and pair of coefficients; every probability space carrying such words", "why_tests_cant": "Moments are sums over all blocks of words.", "anchors": ["libdieharder/dab_dct.c: dab_dct"]}
{"id": "C75", "title": "q_ks is Kolmogorov's asymptotic distribution except at zero", "statement": "q_ks lies between the first two partial sums of Kolmogorov's alternating series and exceeds the sum of the series by at most 2 exp(-20000 x^2) for every x other than 0; at 0 it is 2, so that kstest returns the p-value 2 for a large count of perfectly evenly spaced p-values.", "quantifier": "every real argument; every count and order of evenly spaced p-values", "why_tests_cant": "Convergence and error bounds of a series over the reals; the failing input has measure zero.", "anchors": ["libdieharder/kstest.c: q_ks", "libdieharder/kstest.c: kstest"]}
{"id": "C76", "title": "p_ks_new evaluates the formula of Marsaglia, Tsang and Wang", "statement": "Outside the range of its approximation p_ks_new(n,d) stays inside its buffers and returns 1 - n!/n^n (H^n)_{k,k}, where H is the matrix of Marsaglia, Tsang and Wang for k = floor(nd)+1 and h = k-nd, whatever rescalings take place; the result is at most 1, and for nd < 1 it is 1 - n! max(2d-1/n,0)^n.", "quantifier": "every n >= 1, every d >= 0", "why_tests_cant": "Every matrix size and exponent; the rescaling paths only occur for large n.", "anchors": ["libdieharder/kstest.c: p_ks_new", "libdieharder/kstest.c: mPower"]}
{"id": "C77", "title": "The chi-square functions compute Pearson's statistic of the stated cells", "statement": "chisq_poisson and chisq_geometric return the tail probability of Pearson's statistic of the first kmax cells with kmax-1 degrees of freedom, where the expectations add up to less than the sample size; chisq_binomial uses exactly the cells with more than ten observations with one degree of freedom less than such cells, and 2^32-1 degrees of freedom if there are none.", "quantifier": "every vector of counts, every parameter", "why_tests_cant": "Every vector of counts; the unsigned wrap-around only occurs for sparse data.", "anchors": ["libdieharder/chisq.c: chisq_poisson, chisq_geometric, chisq_binomial"]}
{"id": "C78", "title": "The mean of Pearson's statistic", "statement": "For independent trials that follow the expected law exactly, the mean of Pearson's statistic over K cells is K minus the probability of these cells. It equals the number of degrees of freedom K-1 if the cells exhaust the law, and exceeds it by the tail probability in chisq_poisson and chisq_geometric.", "quantifier": "every probability space carrying pairwise independent trials, every law, number of trials and cells", "why_tests_cant": "An expectation over all samples.", "anchors": ["libdieharder/chisq.c: chisq_poisson, chisq_pearson, chisq_geometric", "libdieharder/diehard_birthdays.c: diehard_birthdays"]}
{"id": "C79", "title": "The G-test statistic is nonnegative and zero only for equal counts", "statement": "If the counts add up to the number of items, chisq_uint_uniform_gtest evaluates the corrected G statistic, which is never negative (the absolute value is not needed) and is zero exactly if all counts are equal; from 46341 cells on the correction overflows in int.", "quantifier": "every vector of counts, every number of cells", "why_tests_cant": "Gibbs' inequality over all count vectors.", "anchors": ["libdieharder/chisq.c: chisq_uint_uniform_gtest"]}
{"id": "C80", "title": "chisq2d is Pearson's test of independence", "statement": "For a table of counts with total N, chisq2d returns the tail probability of Pearson's independence statistic with (R-1)(C-1) degrees of freedom; the statistic does not change under transposition, is nonnegative, and with no empty row or column it is zero exactly for tables that factor.", "quantifier": "every table of counts with total below 2^32", "why_tests_cant": "Every table shape and content.", "anchors": ["libdieharder/chisq.c: chisq2d"]}
{"id": "C81", "title": "p_ks_new is the distribution of the Kolmogorov-Smirnov distance", "statement": "Where it does not take the shortcut for large values, p_ks_new(n,d) equals, in exact arithmetic, the probability that n independent values uniform on [0,1] have a Kolmogorov-Smirnov distance (largest difference between their empirical distribution function and the identity) of d or more.", "quantifier": "every n>=1, every real d>=0 outside the shortcut range (every d>=0 with ks_test=2), every probability space with n independent uniform variables", "why_tests_cant": "The claim is an equality of a computed number with a probability over a continuum of inputs; simulation only gives a few digits of it.", "anchors": ["libdieharder/kstest.c: p_ks_new, mPower, mMultiply"]}
{"id": "C82", "title": "kstest's p-value is valid, but has an atom at 1", "statement": "For n>=2 independent samples uniform on [0,1], the p-value returned by kstest with the exact distribution (ks_test=2) is at most alpha with probability at most alpha, for every alpha>=0. It is not uniformly distributed: with probability at least n!/(n+1)^n it is exactly 1, which dieharder grades as a failure.", "quantifier": "every n>=2, every alpha>=0, every probability space with n independent uniform variables", "why_tests_cant": "A statement about the distribution of the result over a continuum of sample vectors.", "anchors": ["libdieharder/kstest.c: kstest, p_ks_new"]}
{"id": "C83", "title": "Exact null moments of the missing-word tests", "statement": "For independent uniform draws the number of missing words in diehard_opso, diehard_oqso and in both halves of dab_opso2 has exactly the mean 2^m(1-2^-m)^n and the variance of the number of empty cells when n balls fall independently into 2^m cells. With the default sample sizes the normalised score therefore has mean 0.0005 and variance 0.999 (opso), mean 0.0013 and variance 0.971 (oqso, whose sigma is that of overlapping words although its words do not overlap), and mean 0 and variance 1 to nine digits (opso2).", "quantifier": "every number of words n, every draw width the test accepts (20-32, 30-32, 24-32 bits), the full uniform distribution over all draws", "why_tests_cant": "A moment over 2^(32 k) equally likely inputs; simulation resolves the constants to a few digits only.", "anchors": ["libdieharder/diehard_opso.c", "libdieharder/diehard_oqso.c", "libdieharder/dab_opso2.c"]}
{"id": "C84", "title": "sts_serial computes the serial test's statistics, whose null means are the degrees of freedom used", "statement": "sts_serial returns the p-values of the difference of zeros and ones (as a normal variable with variance the number of bits), and for every width m=2..16 of the first (and from m=3 the second) difference of Pearson's statistic of the overlapping cyclic m-bit patterns. For independent uniform words that statistic has mean exactly 2^m-1, so the differences have exactly the means 2^(m-1) and 2^(m-2) of the chi-square variables they are compared with; the difference of zeros and ones has mean 0 and variance the number of bits.", "quantifier": "every nonempty list of words; every number of words and every width for the means", "why_tests_cant": "The first part is an identity for all bit strings, the second a mean over all 2^(32k) inputs.", "anchors": ["libdieharder/sts_serial.c: sts_serial"]}
{"id": "C85", "title": "The count-the-1s statistic and its exact null mean", "statement": "With at least 79280 samples diehard_count_1s_stream and diehard_count_1s_byte return the normal p-value of Q5-Q4 against mean 2500 and variance 5000, where Q5 and Q4 are Pearson's statistics of the five- and four-letter words; for independent uniform words Q5-Q4 has mean exactly 2500 for every sample size, although the words of the stream test overlap. With at most 894 samples all words are pooled into one cell and the p-value does not depend on the generator.", "quantifier": "every source of words, every sample size >= 79280 (resp. <= 894); every sample size for the mean", "why_tests_cant": "The mean is over all inputs and the statistic has 3750 cells.", "anchors": ["libdieharder/diehard_count_1s_stream.c", "libdieharder/diehard_count_1s_byte.c", "libdieharder/Vtest.c", "libdieharder/Xtest.c"]}
{"id": "C86", "title": "The overlapping permutations test and its null mean", "statement": "diehard_operm5 returns the upper chi-square probability, with 96 degrees of freedom, of the absolute value of the quadratic form of the 120 centred counts with the compiled 120x120 table, divided by the number of samples; with disjoint samples it uses Pearson's statistic and 119 degrees of freedom. When the draws are N different values in random order, the mean of the quadratic form over all N! orders is exactly 1244160000000028502399/12960000000000000000 + (597551201177666648527/36288000000000000000)/n for every n >= 4, that is 96 within 16.47/n + 3e-12; the mean of Pearson's statistic of disjoint samples is exactly 119.", "quantifier": "every source of draws and every sample count (statistic); every set of N different 32-bit values, every n with 4 <= n <= N-4 (overlap), every n > 0 with 5n+5 <= N (disjoint), all N! orders", "why_tests_cant": "A mean over N! orders involving all 14400 table entries; simulation cannot separate 96 from 96.0000000000022 or show that the limit does not depend on n.", "anchors": ["libdieharder/diehard_operm5.c: diehard_operm5", "include/dieharder/diehard_operm5.h: pseudoInv"]}
{"id": "C87", "title": "Mean of the pooled chi-square statistic", "statement": "For n pairwise independent trials with cell probabilities p_c, judged against expectations n*q_c, the mean of the statistic of Vtest_eval is the sum of (P(1-P)+n(P-Q)^2)/Q over the cells that expect at least five and over the pooled remaining cells if they expect at least five together, and the degrees of freedom are one less than the number of these terms. When p=q the mean is exactly the number of degrees of freedom if the pooled cell is used, and otherwise exceeds it by the probability of the cells left out.", "quantifier": "every number of trials and cells, every pair of probability vectors, every finite probability space with pairwise independent trials", "why_tests_cant": "An identity of expectations for arbitrary laws and cell counts.", "anchors": ["libdieharder/Vtest.c: Vtest_create, Vtest_eval"]}
{"id": "C88", "title": "The permutations test on values in random order", "statement": "When the draws are N different values in random order, the cells of the samples of rgb_permutations are uniformly distributed over the k! permutations and pairwise independent; with at least 5*k! samples the statistic has mean exactly k!-1, its number of degrees of freedom. With fewer samples every permutation is pooled into one cell and the statistic is 0 whatever the generator produces (with k=8 already for the default 100000 samples).", "quantifier": "every k from 2 to 12, every sample count, every set of N >= k*n different 32-bit values, all N! orders; every source for the second part; every sort and permutation table that keep GSL's promises", "why_tests_cant": "A mean over all N! orders for every k; the second part holds for all generators.", "anchors": ["libdieharder/rgb_permutations.c: rgb_permutations", "libdieharder/Vtest.c: Vtest_eval"]}
{"id": "C89", "title": "The runs test on values in random order", "statement": "diehard_runs returns the upper gamma(3) tails at half the quadratic forms of the counts of ascending and of descending runs (all runs but the one C36 leaves out), with the tables a and b of the source; b is the limit of the number of runs per draw. When the draws are N different values in random order, each quadratic form has mean exactly 16420650751/2724321600 + (3426216358303/311351040)/n, that is about 6.0274 + 11004/n, for n draws: not the 6 of the chi-square distribution it is compared with. For the default n = 100000 the mean exceeds 6.137.", "quantifier": "every n >= 14, every set of N >= n different 32-bit values, all N! orders; every source for the statistic", "why_tests_cant": "A mean over all N! orders for every n; the deviation of 2% is invisible in a single run.", "anchors": ["libdieharder/diehard_runs.c: diehard_runs, a, b"]}
{"id": "C90", "title": "Words from the random devices and from standard input", "statement": "The generators for /dev/random, /dev/urandom and /dev/arandom use eight bytes per draw (an unsigned long), although they advertise UINT_MAX as the maximum: a draw is at most UINT_MAX only if its last four bytes are zero, the uniform deviate exceeds 1 otherwise, and a test that stores the draw in an unsigned int sees only the first four bytes. A uniform integer below n (the dice of craps) comes from the first draw below n*(UINT_MAX/n), so it never comes while the last four bytes of the draws are not all zero. A short read leaves the draw undefined. The generator for standard input uses four bytes per draw, ends the program at the end of the input, and its deviate is between 0 and 1 inclusive.", "quantifier": "every byte stream, every n from 1 to UINT_MAX, every number of draws", "why_tests_cant": "The event that four device bytes are zero has probability 2^-32 per draw; tests on devices are not reproducible.", "anchors": ["libdieharder/rng_dev_random.c: dev_random_get, dev_random_get_double", "libdieharder/rng_dev_urandom.c", "libdieharder/rng_dev_arandom.c", "libdieharder/rng_stdin_input_raw.c: stdin_input_raw_get", "libdieharder/diehard_craps.c: roll"]}
{"id": "C91", "title": "The generator and the test selected on the command line", "statement": "For any list of options -d, -f, -g, -S in any order (at most 100 -g and 100 -S): the argument of -d or -g counts as a number if it begins with a decimal number and its first character is not repeated right after the number, otherwise as a name. The generator is decided by the first -g alone: its number modulo 2^32 if that entry is registered under a non-empty name, or the first registered generator that agrees with the name in the first 20 characters; 13 without -g or with an empty name; a generator whose name begins with file_input needs -f. The test is the last number given with -d, even when a name follows; only if there is none (or it is negative as an int) the last name decides. In all other cases the program ends without a test. Further -g options do not combine generators: they are only seen by the generator XOR, which uses generator 0 for every component given by name. The seed is the last -S modulo 2^32. The 101st -g writes out of bounds.", "quantifier": "every list of options and arguments, every table of generators and tests of 1000 entries", "why_tests_cant": "The documentation promises that several -g are combined; mixing numbers and names in every order is not a feasible test set.", "anchors": ["dieharder/parsecl.c: parsecl", "dieharder/choose_rng.c: choose_rng, select_rng", "dieharder/run_test.c: run_test", "dieharder/set_globals.c: set_globals", "libdieharder/rng_XOR.c: XOR_set"]}
{"id": "C92", "title": "The gcd statistic on random pairs", "statement": "For every number of samples n below 2^32 for which the table has at least three cells: the chi-square of the second p-value of marsaglia_tsang_gcd is Pearson's sum over the gcd values 2, 3, ..., g-1, the values from g-1 on taken together, and the degrees of freedom are g-3. Two random non-zero 32-bit words have gcd k with a probability that differs from 6/(pi^2 k^2) by at most 49/(k(2^32-1)). Over n independent pairs of random non-zero words the mean of the statistic is computed exactly from the cell probabilities; it is always greater than the degrees of freedom, by at least 0.6 + 5e-11 n (g-2), because the cell of gcd 1 is left out without giving back its degree of freedom and because the sum for the last cell stops at 99999. With the default 10^7 samples it is between 243.75 and 243.77 instead of 243; with 4*10^9 samples it is at least 986 too high.", "quantifier": "every number of samples, every table of counts, all sequences of pairs of 32-bit words, uniformly distributed", "why_tests_cant": "The bias is less than a twentieth of a standard deviation at the default sample size; the law of the gcd of random words needs a proof by Moebius inversion.", "anchors": ["libdieharder/marsaglia_tsang_gcd.c: marsaglia_tsang_gcd", "libdieharder/Vtest.c: Vtest_eval", "include/dieharder/libdieharder.h: PI"]}
{"id": "C93", "title": "The squeeze table is right, and so is the mean of the statistic", "statement": "When the deviates are uniform (so that each step leads from k to a uniformly distributed number from 1 to k), every one of the 43 entries of the table of diehard_squeeze differs from the exact probability of its number of steps from 2^31-1 to 1 by at most 1.25e-8, and the entries add up to 1. Over n trials, each of which begins with the draw after the last one of the trial before, the mean of the statistic is given exactly by the cell probabilities. With the 100000 trials of a default run the cells of 6 or less and of 45 or more steps are pooled, there are 38 degrees of freedom and the mean is 38 up to 0.002; from 509165 trials on there are 42 degrees of freedom and the mean is 42 up to 0.007 + 8e-11 n.", "quantifier": "every number of trials, all sequences of deviates on a grid fine enough to make every step uniform", "why_tests_cant": "The exact law needs symmetric functions of 2^31 reciprocals; a simulation with an accuracy of 1e-8 per cell would need more than 10^15 trials.", "anchors": ["libdieharder/diehard_squeeze.c: sdata, diehard_squeeze", "libdieharder/Vtest.c: Vtest_eval"]}
{"id": "C94", "title": "The law of the trees of filltree2, its table and the null mean", "statement": "For random words of 1 to 32 bits and a tree size of 2*2^H (H from 1 to 6), the number of paths needed to find a full one and the position of its end are independent; the position is uniform on the 2^H possible ends, and the number of paths has the law given by a binomial recursion on the height. If half the size is not a power of two, no position is hit with the uniform probability against which the second p-value is computed. Each of the 128 entries of the table differs from the exact probability for size 128 by at most a relative 4e-15. The mean of the statistic of the first p-value is given exactly by the cell probabilities, for every number of trees; a default run of 5000000 trees compares the cells 7 to 88 with 81 degrees of freedom, and the mean is between 81+3.19e-6 and 81+3.2e-6 (the cell `end` itself and those below `start` are left out). A run of 112 trees or fewer leaves the range empty, with start beyond the table, and reads outside the tables.", "quantifier": "every sequence of random words long enough for the run, every width from 1 to 32 bits, every number of trees, all sizes 2*2^H with H up to 6 (and all other sizes for the failure)", "why_tests_cant": "The table has 15 digits, which no simulation can reach; the law is a statement about all 2^768 bit sequences that a tree may use; the mean is a sum over all words of a run of 5000000 trees.", "anchors": ["libdieharder/dab_filltree2.c: targetData, dab_filltree2, insertBit", "libdieharder/chisq.c: chisq_pearson"]}
{"id": "C95", "title": "The law of the search trees of filltree, its table and the null means of both statistics", "statement": "For independent keys that are uniform on 1, ..., N (N at least 2^14) and a tree size of 2*2^H (H up to 4), the number of keys that a tree takes and the position at which the first key without room ends have the probabilities that belong to keys in random order, with the position uniform on the 2^H possible ends and independent of the number, up to a relative error of 121/N that comes from equal keys. For N of at least 2*10^9 each of the 20 entries of the table differs from the exact probability by at most 2.4e-6; the entries 9 and 10 are wrong by more than 2e-6, although the table has eight digits. The means of the statistics of both p-values are given exactly by these probabilities; a default run of 15000000 trees compares the cells 4 to 14 with 10 degrees of freedom, with a mean between 10.003 and 10.0032, and the positions with 15 degrees of freedom, with a mean that differs from 15 by at most 1e-6. A run of 19 trees or fewer is undefined: 1 to 3 trees give a remainder by zero, and otherwise the range is empty with start beyond the table.", "quantifier": "every sequence of keys long enough for the run, every N from the given bound on, every number of trees, all sizes 2*2^H with H up to 4", "why_tests_cant": "The law is a statement about all N^16 key sequences; errors of 2e-6 in a table need more than 10^10 trees to be seen; the mean is a sum over all key sequences of a run of 15000000 trees.", "anchors": ["libdieharder/dab_filltree.c: targetData, dab_filltree, insert", "libdieharder/chisq.c: chisq_pearson"]}
{"id": "C96", "title": "The null means of the rank statistics", "statement": "On independent uniform words of any width from 1 to 32 bits, the rank test of 32x32 matrices compares the ranks 29 to 32 with 3 degrees of freedom for every number n of matrices from 946 on, and the mean of its statistic over all word sequences differs from 3 by at most 1.02e-8 + n*5.1e-19. The test of 6x8 matrices compares the ranks 3 to 6 with 3 degrees of freedom for 61811 to 33364918 matrices, with a mean that differs from 3 by at most 5e-6 + n*1.5e-12; its matrices of rank 2 or less are counted nowhere.", "quantifier": "every word width, every sequence of words long enough for the run, every number of matrices in the range", "why_tests_cant": "The mean is a sum over all sequences of bits of a run of 40000 matrices of 1024 bits.", "anchors": ["libdieharder/diehard_rank_32x32.c: diehard_rank_32x32", "libdieharder/diehard_rank_6x8.c: diehard_rank_6x8", "libdieharder/Vtest.c: Vtest_eval"]}
{"id": "C97", "title": "The null mean of the byte distribution statistic", "statement": "On independent uniform words of any width from 8 to 32 bits and with at least 1280 samples, the statistic of dab_bytedistrib has 2295 degrees of freedom and its mean over all word sequences is exactly 2295, although the three bytes of a word overlap if it has fewer than 24 bits. With fewer than 1280 samples all cells are pooled: the statistic is 0 with 2295 degrees of freedom for every generator.", "quantifier": "every word width from 8 on, every number of samples, every sequence of words", "why_tests_cant": "The mean is a sum over all sequences of words; the second part is about every generator.", "anchors": ["libdieharder/dab_bytedistrib.c: dab_bytedistrib", "libdieharder/Vtest.c: Vtest_eval"]}
{"id": "C98", "title": "The null mean of the bit distribution statistic, and when it has no degrees of freedom", "statement": "On independent uniform words of 1 to 32 bits, for every tuple width nb from 1 to 31, every tuple value that may be picked and every number n of samples from 20 on, rgb_bitdist compares the numbers of occurrences among 64 tuples with the exact binomial law: the mean of the statistic exceeds the degrees of freedom by the probability of the cells that are not used, which is less than 20/n. If fewer than 20 samples are expected to contain the tuple (for example 1000 samples with nb = 12, or the default 100000 with nb = 19), only one cell is used: there are 0 degrees of freedom and the statistic is positive for every generator. With fewer than 20 samples the statistic is 0 with 4294967295 degrees of freedom for every generator.", "quantifier": "every word width, tuple width, tuple value, number of samples and sequence of words", "why_tests_cant": "The mean is a sum over all word sequences of a run; the failures hold for every generator.", "anchors": ["libdieharder/rgb_bitdist.c: rgb_bitdist", "libdieharder/Vtest.c: Vtest_eval"]}
{"id": "C99", "title": "The value of evalMostExtreme and its law", "statement": "evalMostExtreme of n p-values is determined by the first of those nearest to an end of the unit interval: with the distance d from that end it is (1-d)^n if the end is 0 and 1-(1-d)^n if it is 1, so that it runs against the p-values (a p-value 0 gives 1 and a p-value 1 gives 0). For n independent uniform p-values the probability that it is at most y is (1 - max(2a-1,0)^n)/2 + max(2b-1,0)^n/2, where a^n = 1-y and b^n = y. This is y for n = 1, at most y for y up to 2^-n, and not uniform for n = 2: the value is at most 1/4 with probability sqrt(3)-3/2.", "quantifier": "every number and vector of p-values; the law is with respect to the volume of the unit cube in every dimension", "why_tests_cant": "The law is a volume in n dimensions; the deviation from uniformity is small.", "anchors": ["libdieharder/dab_dct.c: evalMostExtreme", "libdieharder/dab_monobit2.c: dab_monobit2"]}
{"id": "C100", "title": "The craps statistics on fair dice", "statement": "On infinitely many independent rolls of a fair die the craps test finishes with probability 1, the number of throws and the results of its games are independent and have the probabilities given by the rules, the number of wins has exactly the mean and the variance that the test assumes, and the mean of the throws statistic is the number of used classes less one (plus the probability of the classes that are left out because they expect less than five together). With 9425 games or more the mean is 20 with 20 degrees of freedom. The result does not depend on how long the games are allowed to last.", "quantifier": "every number of games; almost every infinite sequence of rolls", "why_tests_cant": "Games have no longest length, so the sample space is infinite; a test sees single runs.", "anchors": ["libdieharder/diehard_craps.c: diehard_craps", "libdieharder/Vtest.c: Vtest_eval", "libdieharder/Xtest.c: Xtest_eval"]}
{"id": "C101", "title": "The moments of the monobit, runs and lagged sum statistics", "statement": "For independent uniform words sts_monobit judges a number with mean 0 and variance the number of bits, which is what it assumes. sts_runs judges the number of changes around the cyclic bit string; among all samples of N bits with the same number k of ones the mean is 2k(N-k)/(N-1) and the variance 4k(k-1)(N-k)(N-k-1)/((N-1)^2(N-2)), while the test assumes 2k(N-k)/N and 4k^2(N-k)^2/N^3, so that its standardised value has the mean -sqrt(N)/(N-1). rgb_lagged_sums judges a sum of n deviates; for a generator with L values the mean is n/2-n/(2L) and the variance n(L^2-1)/(12L^2), while the test assumes n/2 and n/12, so that its standardised value has the mean sqrt(3n)/L.", "quantifier": "every word width and sample size, every number of ones, every lag and number of values of the generator", "why_tests_cant": "The differences are far below the noise of single runs unless the sample is large, and averages over all samples are not observable.", "anchors": ["libdieharder/sts_monobit.c: sts_monobit", "libdieharder/sts_runs.c: sts_runs", "libdieharder/rgb_lagged_sums.c: rgb_lagged_sums", "libdieharder/Xtest.c: Xtest_eval"]}
{"id": "C102", "title": "The period of kiss and the periods of the small components of superkiss", "statement": "Whatever the seed, the values of kiss repeat exactly at the multiples of 2^32(2^32-1)(4294584393*2^31-1), about 2^127, and so do its states: the seeded state itself comes back. In a period each of the 2^32 words occurs equally often. In superkiss, whatever the seed, the congruential component has the period 2^32, but the xorshift component has only the period 306706140, because the last shift goes to the right (xs>>5) where the usual generator shifts to the left.", "quantifier": "every seed, every number of draws", "why_tests_cant": "The period exceeds any number of draws by far; the short cycle of a component cannot be seen in the sum.", "anchors": ["libdieharder/rng_kiss.c: kiss_get", "libdieharder/rng_kiss.c: kiss_set", "libdieharder/rng_superkiss.c: superkiss_get", "libdieharder/rng_superkiss.c: superkiss_set"]}
{"id": "C103", "title": "The periods of R_wichmann_hill, R_marsaglia_multic and R_super_duper", "statement": "Whatever the seed, the earlier contents of the state array and the rounding of doubles (any monotone rounding that is exact on 53-bit numbers), the numbers of R_wichmann_hill repeat exactly at the multiples of 6953607871644. Those of multicarry, from the second number on, repeat exactly at the multiples of 1211400191*589823999 (about 2^60), where a component whose seeding word is a multiple of its modulus contributes 1 instead; the first number is exempt: there is a seed for which the whole sequence has no period. Those of R_super_duper repeat exactly at the multiples of 2^30*4292868097, except for seeds whose first word lies in one of two small subspaces, where the second factor is only 2047 or 2097151; both exceptions are reached.", "quantifier": "every seed, state array and rounding, every number of draws", "why_tests_cant": "The periods are out of reach of a run, and the short cycles belong to rare seeds.", "anchors": ["libdieharder/rngs_gnu_r.c: unif_rand", "libdieharder/rngs_gnu_r.c: RNG_Init", "libdieharder/rngs_gnu_r.c: FixupSeeds"]}
{"id": "C104", "title": "The period of R_knuth_taocp and R_knuth_taocp2", "statement": "Whatever the seed, the earlier contents of the state array and the rounding of doubles (any monotone rounding that is exact on 53-bit numbers), the numbers of both generators repeat exactly at the multiples of 100*2^29*(2^100-1): the word sequence x(i+100) = x(i) - x(i+63) mod 2^30 has the period 2^29*(2^100-1) from every table that is not wholly even, the seeding never gives a wholly even table, and keeping 100 words of each 1009 multiplies the period by a hundred.", "quantifier": "every seed, state array and rounding, every number of draws", "why_tests_cant": "The period is about 2^136.", "anchors": ["libdieharder/rngs_gnu_r.c: KT_next", "libdieharder/rngs_gnu_r.c: RNG_Init_R_KT", "libdieharder/rngs_gnu_r.c: ran_start"]}
{"id": "C105", "title": "The period of R_mersenne_twister", "statement": "Whatever the seed, the earlier contents of the state array and the rounding of doubles (any monotone rounding that is exact on 53-bit numbers), the numbers of R_mersenne_twister repeat exactly at the multiples of 2^19937-1, which is prime. More generally every sequence of words with the recurrence of MT19937 has this period from its second word on, unless it is zero from there on.", "quantifier": "every seed, state array and rounding, every number of draws", "why_tests_cant": "The period is 2^19937-1.", "anchors": ["libdieharder/rngs_gnu_r.c: MT_genrand", "libdieharder/rngs_gnu_r.c: RNG_Init", "libdieharder/rngs_gnu_r.c: unif_rand"]}
{"id": "C106", "title": "R_mersenne_twister is equidistributed in 623 dimensions", "statement": "Whatever the seed, the numbers of R_mersenne_twister are made of 32-bit words such that over one period of 2^19937-1 words any k <= 623 given words follow one another at exactly 2^(19937-32k) places, except that k zero words do so at one place fewer.", "quantifier": "every seed and state array, every k up to 623, every tuple of words", "why_tests_cant": "The count is over a period of 2^19937-1 words.", "anchors": ["libdieharder/rngs_gnu_r.c: MT_genrand", "libdieharder/rngs_gnu_r.c: RNG_Init", "libdieharder/rngs_gnu_r.c: unif_rand"]}
{"id": "C107", "title": "The listing of the generators agrees with what -g accepts", "statement": "The listing of the generators (list_rngs, -g -1) prints a table of 79 columns with one entry per generator of the GSL (numbers from 0), of dieharder (200), of R (400) and per device that can be opened (500), and an empty block for user generators. Every printed number and every printed name, given to -g, selects the generator it is printed with; a number below 1000 or a name that is not in the table ends the program. dh_num_rngs is the number of entries, but one too large after add_ui_rngs.", "quantifier": "every list of at most 199 GSL generators with names that differ in 20 characters, every combination of devices, every version string of at most 27 characters, all further options", "why_tests_cant": "The GSL and the devices of the machine determine the table; all combinations with other options cannot be run.", "anchors": ["libdieharder/dieharder_rng_types.c: dieharder_rng_types", "dieharder/add_ui_rngs.c: add_ui_rngs", "dieharder/list_rngs.c: list_rngs", "libdieharder/version.c: dh_header", "dieharder/choose_rng.c: choose_rng"]}
{"id": "C108", "title": "rgb_kstest_test depends on the set of deviates only and is valid", "statement": "The p-value of rgb_kstest_test depends on the tsamples deviates drawn and neither on their order nor on memory or later deviates. With -k 2 and independent uniform deviates the probability of a p-value of at most alpha is at most alpha; with one deviate it is alpha.", "quantifier": "all deviates, all sample sizes, all alpha", "why_tests_cant": "A statement about a probability distribution and about all orders of the deviates.", "anchors": ["libdieharder/rgb_kstest_test.c: rgb_kstest_test", "libdieharder/kstest.c: kstest", "libdieharder/kstest.c: kstest_kuiper"]}
{"id": "C109", "title": "The null law of the minimum distance and 3d spheres tests", "statement": "On independent uniform deviates diehard_2dsphere (8000 points) reports a p-value of at most alpha with a probability of at most 1.0002 alpha/(1-alpha) and, for alpha <= 1/2, at least 0.9997 alpha - 0.5002 (alpha/(1-alpha))^2; diehard_3dsphere (4000 points) with at most 1.0051 alpha/(1-alpha) and at least 0.985 alpha - 0.506 (alpha/(1-alpha))^2. For n points the bounds are L and L(1-2r)^d - L^2/2 with the expected number L of pairs closer than the critical distance r.", "quantifier": "all independent uniform deviates, all alpha in [0,1), all numbers of points, any result of the sort that is ordered by the first coordinate", "why_tests_cant": "A statement about a probability distribution in 16000 dimensions.", "anchors": ["libdieharder/diehard_2dsphere.c: diehard_2dsphere", "libdieharder/diehard_3dsphere.c: diehard_3dsphere", "libdieharder/rgb_minimum_distance.c: distance"]}
{"id": "C110", "title": "The p-value of rgb_minimum_distance and its null law", "statement": "With n >= 5 points in 1 to 5 dimensions rgb_minimum_distance computes Fischler's formula from the volume of the ball whose radius is the smallest distance of two points (at most 1); the p-value lies in [0,1) and increases with the distance. On independent uniform deviates the probability of a p-value of at most alpha differs from alpha by at most (1/2+c)L^2 + 2drL, where L is the expected number of pairs within the distance r that belongs to alpha and c = (2/3)(2+Q)n/(n-1)^2. Without -n (ntuple 0) the p-value is one and the same number for every generator; with two points it can be negative.", "quantifier": "all deviates, all n >= 5, dimensions 1 to 5, all r up to 1/2, any sort by the first coordinate", "why_tests_cant": "A statement about a probability distribution; the constant p-value must hold for every generator.", "anchors": ["libdieharder/rgb_minimum_distance.c: rgb_minimum_distance", "libdieharder/rgb_minimum_distance.c: compare_points", "libdieharder/rgb_minimum_distance.c: distance"]}
{"id": "C111", "title": "The Kuiper statistic is too small by up to 1/n and depends on the cut", "statement": "For samples in [0,1), the statistic W that kstest_kuiper forms and Kuiper's statistic V (the sum of the largest excess and the largest deficit of the empirical distribution function) satisfy V = W + 1/n - max(0, m), where m is the least of the differences between the j-th smallest sample and j/n; so W is between V - 1/n and V. Kuiper's V does not change when all samples are turned by the same amount modulo 1, which is the reason to use it; W does: the samples 1/4, 3/4 give 1/4, turned by a quarter they give 0.", "quantifier": "all samples of at least two values in [0,1), all rotations, every tail function", "why_tests_cant": "the deviation is of the order 1/n and looks like noise in any single p-value; invariance is a statement about all rotations", "anchors": ["libdieharder/kstest.c:350-420"]}
{"id": "C112", "title": "The streams of aes, threefish and ca are purely periodic, and a byte of ca has a period of at most 169", "statement": "From every seed the streams of AES_OFB and Threefish_OFB are purely periodic: there is a P of at most 2^128 (2^512) such that the stream repeats after 4 P (16 P) numbers from its first number on, two blocks of the stream agree only if their distance is a multiple of P, and every period of the stream is a multiple of P. The same holds of ca with blocks of 514 numbers. But in ca the numbers at distance 514 have periods of their own: the low byte of the numbers 513, 1027, ... repeats with a period of 1, 2, 3, 4, 27 or 169 of them whatever the seed, and is constant exactly if the rule table leaves the seeded first cell alone, which it does for 37 of the 256 values.", "quantifier": "all 64-bit seeds (and, for ca, values of the global seed), all positions of the stream", "why_tests_cant": "periods of 2^128 cannot be observed; the short period is in one byte of every 514th number", "anchors": ["libdieharder/rng_aes.c", "libdieharder/rng_threefish.c", "libdieharder/rng_ca.c"]}
{"id": "C113", "title": "The listing of the tests shows what -a runs, but not the names that -d accepts", "statement": "`dieharder -l` prints the header and one line for each of 33 tests: its number (0-17, 100-102, 200-211), its name and its reliability. The number of each of these, however written, given as the last -d selects that test, and no other number below 2^31 selects any test (so the user test 600 does not exist). Each test has a second, short name, which is not printed; given as the last -d (without a number among the others) it selects the test, while every name that is printed in the listing is refused, as is every other text. -a runs exactly the tests listed, the three marked Suspect and the one marked Do Not Use included.", "quantifier": "all versions of at most 27 characters, all generator tables, all option lists with at most 100 -g and 100 -S, all arguments of -d, all -n", "why_tests_cant": "the set of all arguments is infinite; the listing and the selection read different fields of the test records", "anchors": ["dieharder/list_tests.c:17-42", "libdieharder/dieharder_test_types.c:30-175", "dieharder/run_test.c", "dieharder/run_all_tests.c"]}
{"id": "C114", "title": "What the command line means as a whole", "statement": "Every setting is what the last of its own options says, independent of the other options and their order (-B counts as -O 0); numbers are the number at the beginning of the text (0 if there is none) modulo 2^32, except that a -t whose number modulo 2^32 is 2^31 or more is ignored, and -t 4294967297 means 1. What happens is decided in this order: no argument at all prints the usage with exit status 0; -V ends the program at its place, as does a -D that is refused; then an unknown option or a leftover argument prints the usage; then -l, -F, -h; otherwise the run starts with the generator, the test and the seed of C91 and the fields of C49. -h with -a describes all tests, with the number of a listed test that test, otherwise (with the name of a test, too) it prints the usage. -F prints the flags with their numbers; each number given to -D shows that field alone, and so does each name but the last, which is refused.", "quantifier": "all option lists (as getopt yields them) with at most 100 -g and -S, all arguments, all numbers of leftover arguments", "why_tests_cant": "there are infinitely many command lines; precedence and order effects show only in combinations", "anchors": ["dieharder/parsecl.c", "dieharder/help.c:11-46", "dieharder/set_globals.c"]}
{"id": "C115", "title": "Reseeding before each test does not restart the bit stream", "statement": "With a nonzero strategy (-s 1) and a fixed seed, execute_test reseeds the generator, but the bits that a previous run left in the buffer of static_get_bits.c stay there. If every run takes a multiple of r bits through the buffer, for an r-bit generator, each run sees exactly what it sees alone in a fresh program; for a generator of 1, 2, 4, 8, 16 or 32 bits this is so for the runs of rgb_bitdist of all widths, for any number of calls and samples. Otherwise it is not: for every r there is a generator such that any run whose number of bits is not a multiple of r changes the first bit of the next run from 1 to 0; for a 31-bit generator this holds for rgb_bitdist with its default sizes.", "quantifier": "all widths r from 1 to 32, all generators of that width, all lists of runs, all lists of requests with proper masks", "why_tests_cant": "it needs all request patterns and generator widths at once; with a 32-bit generator no test would show it", "anchors": ["dieharder/run_test.c:41-72", "libdieharder/static_get_bits.c:25-196", "libdieharder/rgb_bitdist.c:226-288", "dieharder/choose_rng.c:182"]}
{"id": "C116", "title": "The tail function of the Kuiper test", "statement": "For every positive argument x the two sums that q_ks_kuiper forms converge, and the value is Q(x) + Q'(x)/(3 sqrt(count)), where Q is the tail of Kuiper's limit distribution. The first sum alone is a true tail function: strictly decreasing from 1 to 0, strictly between them. The value is always below Q(x), so below 1, but it is not a probability: it is negative whenever x is at least 1.99 and at least 0.89 sqrt(count); so kstest_kuiper returns a negative p-value for every sample of 5 or more equal values. For the sample 0, 1/n, ..., (n-1)/n the argument is 0, every term of the first sum is -1, and the loop is not left.", "quantifier": "all arguments x, all sample sizes, all constant samples, all numbers of iterations", "why_tests_cant": "that the value is a limit of infinite sums over a continuum of arguments; its sign was never looked at, because tiny negative values print as zeros", "anchors": ["libdieharder/kstest.c:402-403", "libdieharder/kstest.c:422-467"]}
{"id": "C117", "title": "The report can be read by a program", "statement": "Let the line type be shown (flag prefix), the separator be no blank, no newline and no character of a field, and the descriptions be off. Then whatever else is printed (headers, generator lines, histograms, all p-values, notes on files), the lines of the whole report that begin with 2 are, in order, one for each p-value of each test; cut at the separator and freed of blanks they hold exactly the selected columns, in the order of the title line: name, number, ntuple, tsamples, psamples, p-value, assessment, seed. The name is cut after 20 characters unless blanks are suppressed, which still tells all tests of the listing apart. If the generator is to be shown, exactly one line begins with 1, and it holds its name and the selected data on it; if all p-values are to be shown, the lines that begin with the separator hold them in their order.", "quantifier": "all flag words, separators, sequences of tests, numbers of p-values, seeds and texts", "why_tests_cant": "2^17 flag combinations times separators times reports of any length; a test compares a few outputs", "anchors": ["dieharder/output.c:19-116", "dieharder/output.c:123-220", "dieharder/output.c:228-340", "dieharder/output.c:349-551"]}
{"id": "C118", "title": "The histogram shows the distribution of the p-values", "statement": "output_histogram is defined exactly if ten times each value is in the range of int, in particular for all probabilities. Each value is counted in one of the ten tenths. The scale v is the least number that is at least psamples/100 and leaves all counts below 20 v. Column j holds stars at level i exactly if the count of tenth j is at least i v, so its height is count/v; the even levels are labelled i v; the top level is always empty.", "quantifier": "all lists of values, all psamples", "why_tests_cant": "unbounded lists of real numbers and a search loop for the scale whose end depends on them", "anchors": ["dieharder/output.c:557-650"]}
{"id": "C119", "title": "What the tests of a run are given, and what the timing takes", "statement": "After the selection of a generator, and whatever is timed, the tests draw from a fixed sequence. Standard input (-g 200) is not rewound: the timing takes its first tsamples*psamples words of the timing test (10000000 words, 40 MB, by default or with -a), the tests are given the words that follow, one test after the other, for all seeds and strategies, and if the input is shorter the program ends. Files (-g 201, 202) are rewound by every nonzero seed: with strategy 0 the tests read the file once from its beginning, in a circle, with a strategy every test reads it from its beginning; only if the random seed is 0 do the tests begin behind the words used for timing. Computed generators (aes, threefish): timing, its options and its seed have no influence, and the tests are given the sequence of the seed.", "quantifier": "all contents of standard input and of files, seeds, strategies, options, numbers of tests and of draws", "why_tests_cant": "needs inputs of more than 40 MB and runs that compare what every test is given, for all seeds", "anchors": ["dieharder/choose_rng.c:192-252", "dieharder/time_rng.c:20-48", "libdieharder/rgb_timing.c:18-52", "dieharder/run_test.c:56-70", "libdieharder/rng_stdin_input_raw.c:14-49", "libdieharder/random_seed.c:19-52"]}
{"id": "C120", "title": "The user template and the gorilla test", "statement": "user_template and marsaglia_tsang_gorilla are the test of lagged sums: the p-value is the normal cdf of half of tsamples less the sum of every (ntuple+1)-th value, with standard deviation sqrt(tsamples/12), and tsamples*(ntuple+1) values are drawn. user_template ignores -x, which its description says sets the lag. marsaglia_tsang_gorilla takes the lag from -x: every second value for 0, every floor(x)-th from 1 on, but for other x between -1 and 1 the unsigned lag wraps and it takes every 2^32-th value.", "quantifier": "all sequences of values, lags, values of -x and tsamples", "why_tests_cant": "the p-value depends on real sums, and the wrapped lag needs 2^32 draws for every sample", "anchors": ["dieharder/user_template.c:75-124", "libdieharder/marsaglia_tsang_gorilla.c:15-67"]}
{"id": "C121", "title": "The words of rng_jenkins", "statement": "The words that rng_jenkins.c prints are purely periodic: there is a period P between 1 and 2^32-1 such that two words are equal exactly if their positions differ by a multiple of P, so that no word comes twice in P, and no word is 0.", "quantifier": "all lengths of output", "why_tests_cant": "needs up to 2^32 words, and the equality of all pairs of them", "anchors": ["libdieharder/rng_jenkins.c:18-50"]}
{"id": "C122", "title": "The p-value of dab_monobit2", "statement": "With -n 0 the number of levels is the first j (at most 16) for which fewer than 20 blocks of 2^(j+1) words are expected to have as many ones as zeros; twelve levels by default for 32 bits. With -n from 16 on the program ends. Otherwise the test stays inside its tables, and its p-value is the corrected most extreme of the p-values of the levels, each a chi-square over the cells with more than ten blocks, where the cell without ones also holds the blocks of ones of the level below and the cell of ones the blocks without ones of the level above. With no levels, that is for 32 bits with up to 403 words, the p-value is 0 for every sequence of words.", "quantifier": "all sequences of words of up to 32 bits, numbers of words and ntuples", "why_tests_cant": "the number of levels compares real numbers of the size of binomial coefficients of 2^21; the p-value depends on every word", "anchors": ["libdieharder/dab_monobit2.c:26-103", "libdieharder/dab_dct.c:285-307", "libdieharder/chisq.c:149-199"]}
{"id": "C123", "title": "The craps and gcd tests end on a source that repeats itself", "statement": "A game of craps goes on for ever exactly if its first throw is a point and neither a 7 nor the point follows. If the words repeat themselves from the beginning with some period, as those of a rewound file do, diehard_craps ends, provided a word of the period is accepted by gsl_rng_uniform_int; with a sequence of dice that repeats itself only from the second die on it need not end. For words that repeat themselves marsaglia_tsang_gcd ends unless all of them are zero, and if they all are it never ends.", "quantifier": "all periodic sequences of words, periods and numbers of samples", "why_tests_cant": "whether a loop never ends is not decided by running it", "anchors": ["libdieharder/diehard_craps.c:30-33", "libdieharder/diehard_craps.c:96-148", "libdieharder/marsaglia_tsang_gcd.c:205-242"]}
{"id": "C124", "title": "The p-values of the birthday tests", "statement": "The search for the number of cells of diehard_birthdays and dab_birthdays1 always ends, at the first cell after 0 that expects at most five samples. The p-value is that of a chi-square statistic, over the cells up to this one, of the numbers of samples with so many repeated spacings against the Poisson law with mean m^3/2^(b+2), for m numbers (512; 1700, or -n up to 4096) of b bits (the generator's width, at most 24 for diehard_birthdays). With the default sizes and a generator of at most 22 (diehard) or 27 (dab) bits the only cells are 0 and 1: if every sample has two repeated spacings or more, the p-value is a constant that does not depend on the numbers.", "quantifier": "all sequences of numbers, widths, sample sizes and numbers of samples for which no sample reads outside of its array", "why_tests_cant": "the p-value depends on real functions of all numbers; that it is constant is a statement about all sequences", "anchors": ["libdieharder/diehard_birthdays.c:50-258", "libdieharder/dab_birthdays1.c:55-241", "libdieharder/chisq.c:44-93"]}
{"id": "C125", "title": "What the 32x32 rank test always finds", "statement": "If the words of a 32-bit generator lie in a space of at most d dimensions over GF(2), d being 29, 30 or 31, then the statistic of diehard_rank_32x32, with 3 degrees of freedom, is at least n(1/P-1) for n >= 946 matrices, P being the program's probability of a rank of at most d: 188n, 6.4n or 0.4n. In at most 29 dimensions it is exactly this number for all generators. So every source that repeats itself after at most 31 words (a short file), and every generator with bits whose sum is always even (for instance a bit that is always 0), has a statistic of at least 0.4n, which is 16000 in a default run.", "quantifier": "all such word sequences, all numbers of matrices from 946 on", "why_tests_cant": "there are 2^(32*40000) word sequences; a lower bound on the statistic is a statement about all of them", "anchors": ["libdieharder/diehard_rank_32x32.c:32-140", "libdieharder/rank.c: binary_rank", "libdieharder/Vtest.c: Vtest_eval"]}
{"id": "C126", "title": "Crowded p-values fail, and a few p-values cannot matter", "statement": "If k of the n p-values of a test lie in an interval of length l, the distance that kstest finds is at least ((k-1)/(n+1)-l)/2; with -k 0 or 1 the final p-value is below 0.000001, a failure, if n((k-1)/(n+1)-l)^2 >= 29.2. So 56 equal p-values among the default 100 fail, and so does the same p-value in 33 samples or more, whatever it is. On the other hand m of n p-values, whatever they are changed to, move the distance by at most m/(n+1): one sample with the p-value 0 is hardly seen. P-values spaced perfectly evenly give the final p-value 1, except that without -k and from 5000 of them on it is 2.", "quantifier": "all lists of p-values, all numbers of samples, -k 0 and 1", "why_tests_cant": "real-valued inputs of any number; the bounds hold for all of them", "anchors": ["libdieharder/kstest.c:23-138", "libdieharder/kstest.c:258-280"]}
{"id": "C127", "title": "The printed p-value and the assessment beside it", "statement": "A p-value between 0 and 1 is printed as a digit, a point and eight digits, at most 0.000000005 away from it, and a smaller p-value is never printed as a larger number. The assessment can be read off the printed number: it is that of the printed number itself, and equal texts have equal assessments, unless the text is that of one of the four limits Xfail, 1-Xfail, Xweak, 1-Xweak. Those exceptions are real: with the defaults each of 0.00000100, 0.00500000, 0.99500000 and 0.99999900 is printed with two different assessments.", "quantifier": "all p-values between 0 and 1, all limits", "why_tests_cant": "the p-values that are printed alike are an interval; no test tries all of them", "anchors": ["dieharder/output.c:456", "dieharder/output.c:498-516", "dieharder/output.c:538"]}
{"id": "C128", "title": "A source and its complement", "statement": "If every bit of a source is inverted, the tests for missing words (opso, oqso, dna, bitstream, dab_opso2) report the same numbers, the count-the-1s tests, sts_runs and 29 of the 30 p-values of sts_serial are the same, and in sts_monobit and the first p-value of sts_serial only the sign of the excess of ones changes, so that p becomes 1-p.", "quantifier": "all sources, all numbers of samples (from 79280 on for the count-the-1s tests), all generator widths", "why_tests_cant": "a relation between two runs on arbitrary sources; a test compares a few", "anchors": ["libdieharder/diehard_opso.c", "libdieharder/diehard_oqso.c", "libdieharder/diehard_dna.c", "libdieharder/diehard_bitstream.c", "libdieharder/dab_opso2.c", "libdieharder/diehard_count_1s_stream.c", "libdieharder/diehard_count_1s_byte.c", "libdieharder/sts_monobit.c", "libdieharder/sts_runs.c", "libdieharder/sts_serial.c"]}
{"id": "C129", "title": "What some tests cannot see", "statement": "diehard_runs depends only on the results of comparing the draws; when the order is reversed (and no two draws are equal) its two p-values are exchanged. diehard_operm5 depends only on the order of the draws as signed numbers, and rgb_permutations only on their order if no tuple has equal values. diehard_rank_32x32 on a 32-bit generator does not change when all words are transformed by the same one-to-one map that respects exclusive or. kstest gives the same p-value when every p becomes 1-p, so a run of sts_monobit on the complement of a source ends with the same p-value.", "quantifier": "all sources and transformed sources, all numbers of samples, all lists of p-values", "why_tests_cant": "a relation between two runs on arbitrary sources, for all transformations at once", "anchors": ["libdieharder/diehard_runs.c:95-179", "libdieharder/diehard_operm5.c:73-240", "libdieharder/rgb_permutations.c:39-152", "libdieharder/diehard_rank_32x32.c:32-140", "libdieharder/kstest.c:23-138"]}
{"id": "C130", "title": "A run of sts_monobit finds bias, and balance that is too perfect", "statement": "With the normal distribution function for sigma computed exactly, a run of sts_monobit (kstest over the p-values of its samples, any -k but 2) ends with a p-value below 1e-6 if k of its m samples have an excess of ones over zeros (or of zeros over ones) of at least c times the square root of the number of bits, for any l >= exp(-c*c/2) with m((k-1)/(m+1)-l)^2 >= 29.2; with the defaults, if 70 of the 100 samples have an excess of 3578 among their 3200000 bits. It also does so, whatever distribution function is used, when every second word is the complement of the one before it, so that all samples are exactly balanced.", "quantifier": "For all sources, numbers of samples and of words, and excesses meeting the inequality.", "why_tests_cant": "A test can only try a few biased generators; that every source with this bias is found needs a bound on the tail of the normal distribution and on kstest.", "anchors": ["libdieharder/sts_monobit.c", "libdieharder/Xtest.c", "libdieharder/kstest.c", "libdieharder/std_test.c"]}
{"id": "C131", "title": "What every test finds in a source that repeats itself", "statement": "Take any test that computes the p-value of a sample from the words it draws and keeps nothing from one sample to the next, and let kstest (any -k but 2) combine the p-values of m samples. If all words are equal the result is below 1e-6 for m >= 33, however many words a sample draws. If the words have period T, it is below 1e-6 if m((k-1)/(m+1))^2 >= 29.2 for a k >= 1 with kT <= m, however many words a sample draws; if each sample draws n words it is enough that kq <= m for a q such that T divides qn. So a binary file of which the number of words divides n fails every such test with 33 samples or more.", "quantifier": "For all such tests, sources and numbers of samples.", "why_tests_cant": "The claim is about all tests at once, including those not written yet.", "anchors": ["libdieharder/kstest.c", "libdieharder/std_test.c", "libdieharder/rng_file_input_raw.c"]}
{"id": "C132", "title": "countx: edges, overlapping windows and expectations", "statement": "In countx.c, count(x) is the number of the lowest 32 bits of x that differ from their lower neighbour (the lowest bit if it is one), for every 64-bit x. gather counts, for each of the len words after the first four, the kinds (few, middle, many edges) of this word and the terms-1 words before it, as a number in base 4 with zeros for words before the first, and never leaves its table, for 1 to 15 terms; with 16 terms or more, or with none and a word that has not few edges, the behaviour is undefined. The probabilities that probinit computes are exactly the fractions of the 2^32 words of each kind, and the expected numbers of the cells add up to len. The generator inside is not reversible when unsigned long has 64 bits.", "quantifier": "For all 64-bit words, states of the generator, lengths and numbers of terms.", "why_tests_cant": "2^64 words and 2^256 states cannot be enumerated; the exactness of the probabilities is a count over 2^32 words.", "anchors": ["libdieharder/countx.c"]}
{"id": "C133", "title": "Seeds from the clock and elapsed times", "statement": "random_seed returns a number below 2^32. From /dev/urandom every such number is obtained from exactly one choice of the first four bytes. Without it, two starts get the same seed exactly if the sums of seconds and microseconds agree modulo 2^32, so starts 0.999999 seconds apart do, and all the starts within n seconds (a million times n of them) get at most n+999999 different seeds. delta_timing is the difference of the two times in microseconds over a million, not negative if the clock did not go back.", "quantifier": "For all times and all contents of /dev/urandom.", "why_tests_cant": "Needs particular values of the clock, and a count over all of them.", "anchors": ["libdieharder/random_seed.c", "libdieharder/timing.c"]}
{"id": "C134", "title": "The binomial probabilities of prob.c", "statement": "binomial(n,k,p) is the probability of k successes in n trials for k <= n <= 170, and ends the program through GSL's error handler for all larger n and for k > n (where n-k wraps). For n up to 170 and every real p the values for k=0..n add up to 1 and have mean np.", "quantifier": "For all 32-bit n, k and real p.", "why_tests_cant": "Identities for every real p, and all pairs of 32-bit numbers.", "anchors": ["libdieharder/prob.c"]}
{"id": "C135", "title": "Short periods fail the missing-words tests", "statement": "With the normal distribution function and any generator whose stream repeats (each psample may begin anywhere): diehard_opso fails if the period divides 2L with 2L <= 905504, diehard_oqso if it divides 4L with 6L <= 905486, diehard_dna if it divides 10L with 32L <= 905316, diehard_bitstream if it is at most 28279, and both p-values of dab_opso2 if it divides 2L with 2L <= 16467817. Failing means that every psample's p-value is at most 0.0004 and the p-value over the psamples is below 1e-6, from 33 psamples on with -k 0 and 1 and from 12 on with -k 3, for any number of words drawn.", "quantifier": "For all periodic sources, all starting points, all word counts (bitstream: up to 8388640) and all numbers of psamples.", "why_tests_cant": "Quantifies over all sequences of a given period and all lengths of the test.", "anchors": ["libdieharder/diehard_opso.c", "libdieharder/diehard_oqso.c", "libdieharder/diehard_dna.c", "libdieharder/diehard_bitstream.c", "libdieharder/dab_opso2.c"]}
{"id": "C136", "title": "The avalanche program rngav.c", "statement": "For every choice of rotations the generator under test permutes its states (although rot is no rotation of 64-bit words), so seeds lead to different states; the reverse printed in the source does not lead back. gather adds, for each of the 128 bits of the state, in how many of 32 bits the fourth number differs over the given number of states, and the same for Gray codes, every trial starting at another place of the sequence; by the C standard it is undefined, because it evaluates 1<<31. report accepts exactly if all the sums exceed 13 per trial, except the Gray code sum of bit 0, which it never looks at; too many changes are never rejected. driver prints a line exactly if this holds after 2^7, ..., 2^16 trials per bit.", "quantifier": "For all rotations, states, tables and lengths (report: sums below 2^63, at least 3 trials).", "why_tests_cant": "Quantifies over all 256-bit states and all tables.", "anchors": ["libdieharder/rngav.c"]}
{"id": "C137", "title": "Power of the Kuiper test over p-values (-k 3)", "statement": "Kuiper's tail function is below 0.000001 from 3.11 on. With -k 3, if k of the n p-values of a test lie in an interval of length l, the statistic of kstest_kuiper is at least (k-1)/n - l, and if n((k-1)/n-l)^2 >= 9.6721 the final p-value is below 0.000001: 33 equal p-values of 100 suffice (56 with -k 0 or 1). P-values of at most 0.0004 throughout fail from 12 psamples on (33 with -k 0 or 1).", "quantifier": "For all lists of p-values, intervals and numbers of psamples.", "why_tests_cant": "Quantifies over all lists of real p-values.", "anchors": ["libdieharder/kstest.c", "libdieharder/std_test.c"]}
{"id": "C138", "title": "Power of the chi-square tests, and of dab_bytedistrib", "statement": "For the exact incomplete gamma function, the p-value of a chi-square statistic x on f degrees of freedom is at most 2^(f/2) exp(-x/4), and a single cell of a Vtest (with expectation at or above the cutoff) whose count o misses its expectation y makes the statistic at least (o-y)^2/y whatever the other cells hold. Hence dab_bytedistrib (from 1280 samples on) gives a p-value below 0.000001 whenever one byte value in one of the nine sampled positions is counted sqrt(3240 n/256) too often or too rarely: with the default 51200000 samples a deviation of 12.8% is enough, and a byte value that never occurs fails from 829440 samples on. Conversely, if all 2304 counts are within sqrt(0.678 n/256) of their expectation the p-value is above 0.999999: a counter fails.", "quantifier": "For all sources, widths from 8 to 32, sample counts and cells.", "why_tests_cant": "Quantifies over all generators and sample counts.", "anchors": ["libdieharder/Vtest.c", "libdieharder/dab_bytedistrib.c"]}
{"id": "C139", "title": "Power of sts_runs and rgb_lagged_sums", "statement": "With the exact normal distribution: a sample of N bits given to sts_runs in which at least N/2 + 2 sqrt(N) bits differ from the next one (cyclically) has a p-value of at most 0.0004, whatever the number of ones; one with u ones and at most 2(u/N)(1-u/N)(N - 4 sqrt(N)) changes (but some) has a p-value of at least 0.9996. Samples that all are of the one kind or all of the other give a final p-value below 0.000001, from 33 psamples on with -k 0 or 1 and from 12 on with -k 3. rgb_lagged_sums fails in the same way if the mean of the deviates that it reads is off 1/2 by 2/sqrt(3n) to the same side in all samples, 0.0012 for the default million.", "quantifier": "For all words, widths, sample lists, lags and deviates.", "why_tests_cant": "Quantifies over all bit strings and all sequences of deviates.", "anchors": ["libdieharder/sts_runs.c", "libdieharder/rgb_lagged_sums.c", "libdieharder/Xtest.c", "libdieharder/kstest.c"]}
{"id": "C140", "title": "Power of diehard_rank_32x32 and rgb_permutations", "statement": "With the exact chi-square distribution: a run of diehard_rank_32x32 with 946 matrices or more per sample gives a final p-value below 0.000001 if in every sample some nonempty set of bit positions has even parity in every word read, or the words lie in a space of at most 31 dimensions over GF(2). In rgb_permutations with tuples of k <= 12 numbers and at least 5 k! samples, if o >= n/k! of the tuples have distinct entries in one and the same order, the statistic is at least (o - n/k!)^2 / (n/k!) on k! - 1 degrees of freedom; so by default (k = 5, 100000 samples) a run in which some order occurs 1239 times or more per sample, instead of 833, fails. From 33 psamples on with -k 0 or 1 and from 12 on with -k 3.", "quantifier": "For all sources, all masks, spaces and orders (which may be different in every sample), all numbers of samples, and every sort routine and lookup table as in C60.", "why_tests_cant": "Quantifies over all generators that satisfy a linear relation and over all sequences of tuples.", "anchors": ["libdieharder/diehard_rank_32x32.c", "libdieharder/rgb_permutations.c", "libdieharder/Vtest.c", "libdieharder/kstest.c"]}
{"id": "C141", "title": "sts_serial finds every predictor of the next bit", "statement": "Write N for the number of bits of a sample (taken cyclically). The first difference of the serial statistics for m+1 and m bits is 2^m/N times the sum over all m-bit patterns of the squared difference of the numbers of ones and zeros that follow the pattern; the second difference is the same with the numbers of equal and different bits on the two sides of an m-bit pattern. Hence, for every rule that predicts the next bit from the m bits before it, the first difference is at least (right - wrong)^2/N, and for every rule that predicts from m bits whether the bits on both sides differ, so is the second difference. With the exact incomplete gamma function a run fails (all p-values at most 0.0004, final p-value below 0.000001) as soon as in every sample some rule has (right - wrong)^2 >= (32 + 1.3863 2^m) N, for 1 <= m <= 15 (second difference: 14). In particular every feedback shift register of at most 15 bits, linear or not, fails with 1500 words or more per sample. And if every m-bit pattern is followed exactly as often by a one as by a zero, the p-value is 1 and the run fails as too even.", "quantifier": "For all samples of 32-bit words and all predicting functions (which may be different in every sample).", "why_tests_cant": "Quantifies over all functions from bit strings to bits, and over all bit strings.", "anchors": ["libdieharder/sts_serial.c", "libdieharder/kstest.c"]}
{"id": "C142", "title": "The count-the-1s tests find every predictor of a letter", "statement": "The difference of the chi-square statistics of the five-letter and four-letter words that diehard_count_1s_stream and diehard_count_1s_byte compute is a sum of squares: of the deviation of each five-letter count from the share of its first letter in the count of its last four letters. Hence for every function of five letters that has mean zero for each choice of the last four, the square of its sum over the n words is at most the difference times n times its mean square; and for every rule that guesses the first letter from the last four, (right - expected)^2 is at most n/4 times the difference. With the exact normal distribution a run of either test (from 79280 samples on) therefore fails, with all p-values at most 0.0004, if in every sample some rule has (right - expected)^2 >= 696 n; in particular if the letters are a function of the four letters after them.", "quantifier": "For all sources, numbers of samples, functions and guessing rules (which may be different in every sample).", "why_tests_cant": "Quantifies over all functions of five letters and all sequences of words.", "anchors": ["libdieharder/diehard_count_1s_stream.c", "libdieharder/diehard_count_1s_byte.c", "libdieharder/kstest.c"]}
{"id": "C143", "title": "Power of marsaglia_tsang_gcd", "statement": "If no two nonzero words of a generator have the greatest common divisor c, where c is at least 2 and not in the last, pooled cell, the statistic of the first p-value of marsaglia_tsang_gcd is at least n (6/pi^2)/c^2, the expected number of such pairs, on gtblsize - 3 degrees of freedom. Hence with the exact chi-square distribution a run with 10000 pairs or more per sample fails (all p-values at most 0.0004, final p-value below 0.000001) on every generator whose lowest bit is the same in all words of a sample, set or clear.", "quantifier": "For all sources with a nonzero word in every stretch of bounded length, all c, all numbers of pairs below 2^32.", "why_tests_cant": "Quantifies over all generators with a stuck bit, or that avoid a common divisor.", "anchors": ["libdieharder/marsaglia_tsang_gcd.c", "libdieharder/Vtest.c", "libdieharder/kstest.c"]}
{"id": "C144", "title": "Power of rgb_kstest_test", "statement": "If k of the n deviates of a sample lie in an interval of length l, with n((k-1)/(n+1)-l)^2 at least 29.2, the p-value that rgb_kstest_test gives with -k 0 or 1 is below 0.000001 and not negative; with -k 3 it is below 0.000001 as soon as n((k-1)/n-l)^2 is at least 9.6721. If that is so in every one of at least 33 samples, with -k 0 or 1 all p-values are at most 0.0004 and the final p-value is below 0.000001: the test is FAILED. With the default of 10000 deviates, 5545 in one half of the unit interval are enough.", "quantifier": "For all generators, all numbers of deviates and samples, all intervals (another one in each sample), any order of the deviates and any contents of the allocated vector.", "why_tests_cant": "Quantifies over all real vectors of any length with a crowded interval.", "anchors": ["libdieharder/rgb_kstest_test.c", "libdieharder/kstest.c", "libdieharder/std_test.c"]}
{"id": "C145", "title": "Power of diehard_craps", "statement": "With 9425 games or more per sample and the exact normal and chi-square distributions: a number of wins that is 2 sqrt(n) or more above its mean gives a p-value of at most 0.0004, one as far below it a p-value of at least 0.9996. If the number of games with some number of throws from 1 to 20 is off its expectation y by sqrt(60 y) or more, in particular if no game takes that number of throws and y is at least 60, the other p-value is at most 0.0004. If the two dice of every throw are both even or both odd, one of the two p-values of every sample is at most 0.0004, and with 130 samples or more (-k 0 or 1) one of the two final p-values is below 0.000001.", "quantifier": "For all sequences of dice on which the games end, all numbers of games from 9425 on, all classes.", "why_tests_cant": "Quantifies over all sequences of dice; the mixture of games that dice of equal parity give is arbitrary.", "anchors": ["libdieharder/diehard_craps.c", "libdieharder/Xtest.c", "libdieharder/Vtest.c", "libdieharder/kstest.c"]}
{"id": "C146", "title": "Power of diehard_squeeze", "statement": "If no trial of diehard_squeeze can take some number of steps from 7 to 48 of which the table expects 91 trials or more, the p-value with the exact chi-square distribution is at most 0.0004 (6000 trials or more). With deviates of at least 1/2 no trial takes less than 31 steps; with deviates of at most 1/2 every trial takes at most 31 steps, or 48. Hence a generator whose deviates within a sample are all at least 1/2, or all at most 1/2, fails the test (all p-values at most 0.0004, the final one below 0.000001).", "quantifier": "For all deviates (the product computed in double lies between 0 and k), all numbers of trials from 6000 on, all numbers of samples.", "why_tests_cant": "Quantifies over all sequences of deviates with a stuck first bit.", "anchors": ["libdieharder/diehard_squeeze.c", "libdieharder/Vtest.c", "libdieharder/kstest.c"]}
{"id": "C147", "title": "Power of diehard_runs", "statement": "The statistic of diehard_runs is at least 12 D^2/n, D being how far the number of runs counted is from n/2, and at least 7.8, 7.1, 17, 44, 181, 848 times D^2/n, D being how far the number of runs of length 1, 2, 3, 4, 5, 6 or more is from its expectation. The ascending runs counted are as many as the draws not exceeded by the next one, up to one, and ascending and descending runs counted add up to n. Hence a generator with n/2 + 1 + 1.85 sqrt(n) or more such draws, or that few, fails both tests (all p-values at most 0.0004, the final one below 0.000001).", "quantifier": "For all sequences of words, all numbers of draws n from 1 on, all numbers of samples.", "why_tests_cant": "Quantifies over all sequences of words and all sample sizes; the lower bounds hold for the whole quadratic form, real valued.", "anchors": ["libdieharder/diehard_runs.c", "libdieharder/kstest.c"]}
{"id": "C148", "title": "Power of diehard_rank_6x8", "statement": "With 61811 to 33364918 matrices (default 100000) the statistic of diehard_rank_6x8 is the sum of four terms (count - expected)^2/expected, one for each of the ranks 3 to 6, on 3 degrees of freedom; matrices of rank 2 or less are ignored. The test fails (all p-values at most 0.0004, the final one below 0.000001) if in every sample one of the four counts is off by the root of 37 times its expectation, in particular if the low bytes of the words lie in a space of at most five dimensions over GF(2): because three of the low eight bits are always 0, or because the low bytes repeat with a period of at most five.", "quantifier": "For all generators of 32 bits with this defect, all numbers of matrices in the range, all numbers of samples.", "why_tests_cant": "Quantifies over all sequences of words with a linear defect.", "anchors": ["libdieharder/diehard_rank_6x8.c", "libdieharder/rank.c", "libdieharder/Vtest.c", "libdieharder/kstest.c"]}
{"id": "C149", "title": "Power of rgb_bitdist", "statement": "If the tuple picked by rgb_bitdist occurs c times (0 to 64) in o samples, where e samples are expected and e is 20 or more, the statistic is at least (o - e)^2/e, on at most 64 degrees of freedom. With the widths of a default run (1 to 12 bits) and 100000 samples or more the p-value is at most 0.0004 if one of these numbers is off by 11 sqrt(e). The test fails (all p-values at most 0.0004, the final one below 0.000001) on every generator for which all samples of a run contain the tuple picked equally often, in particular, whichever tuple is picked, on a generator that repeats words of 64 times the width bits in all.", "quantifier": "For all generators of 1 to 32 bits, all widths from 1 to 12, all tuples, all numbers of samples from 100000 on, all numbers of p-values.", "why_tests_cant": "Quantifies over all sequences of words and all choices of the tuple, which the program makes at random.", "anchors": ["libdieharder/rgb_bitdist.c", "libdieharder/Vtest.c", "libdieharder/kstest.c"]}
{"id": "C150", "title": "Power of dab_monobit2", "statement": "dab_monobit2 returns a value within 0.000001 of 0 or of 1 (a failure) whenever the statistic of one of its levels, with blocks of N bits, is 1.387 N + 68 or more: if more than ten blocks have the same number of ones and their number o misses its expectation e with (o - e)^2/e that large; or if at most ten blocks have some number of ones, although such a cell is left out of the statistic, because then the other cells are too full. In particular it fails on every generator of 32 bits for which all pairs of words have the same number of ones, constant generators and words alternating with their complements among them, and in a default run on every generator without a pair of words with 32 ones.", "quantifier": "For all generators of 1 to 32 bits, all levels, all numbers of words.", "why_tests_cant": "Quantifies over all sequences of words; the value returned runs against the p-values of the levels (C99), so both ends have to be considered.", "anchors": ["libdieharder/dab_monobit2.c", "libdieharder/chisq.c"]}
{"id": "C151", "title": "Power of the minimum distance tests", "statement": "If two of the points of a run coincide, diehard_2dsphere, diehard_3dsphere and rgb_minimum_distance (1 to 5 dimensions, 5 points or more) return the p-value 0 exactly. So they do on every generator whose deviates repeat after fewer of them than there are points, and on every generator with v different deviates if v^d is less than the number of points: in default runs, generators of up to 6 bits fail the plane test. All three fail when in every run two points are within 0.00000199 (plane), 0.000228 (space) or a distance with at most 0.0004 expected close pairs; and also when in every run no two points are nearer than 0.00028, 0.0062 or a distance with at least 14 expected close pairs.", "quantifier": "For all sequences of deviates, all numbers of points, all sorting functions, all numbers of runs (33 or more, 12 with -k 3, for the final p-value).", "why_tests_cant": "Quantifies over all sequences of deviates of a given period or range; the points may coincide anywhere in the run.", "anchors": ["libdieharder/diehard_2dsphere.c", "libdieharder/diehard_3dsphere.c", "libdieharder/rgb_minimum_distance.c"]}
{"id": "C152", "title": "Capacity and power of diehard_parking_lot", "statement": "Whatever the generator, the number of parked cars lies between a ninth of the number of squares of side 1 that the 12000 attempts touch and that number, and is at most 10000 (so the array of 12000 is more than can ever be needed). The p-value is the normal probability of that number against 3523 and 21.9. So the test fails whenever the attempts of every run touch at most 3435 of the 10000 squares: on deviates of period at most 3435, and on deviates with at most 58 values, generators of up to 5 bits among them. On deviates that are multiples of 1/v with v < 100 the number of cars is the number of different places tried, and if that is 3611 or more the test fails at the other end: a generator of 6 bits that comes by nine tenths of the pairs.", "quantifier": "For all sequences of deviates and all numbers of runs (33 or more, 12 with -k 3, for the final p-value).", "why_tests_cant": "Quantifies over all sequences of 24000 deviates; which attempts are accepted depends on all earlier ones.", "anchors": ["libdieharder/diehard_parking_lot.c", "libdieharder/Xtest.c"]}
{"id": "C153", "title": "Power of diehard_operm5", "statement": "With disjoint samples diehard_operm5 fails whenever in every run some order occurs o times with (o - e)^2 >= 198 e, e = n/120. With 23760 disjoint samples or more it fails whenever some order of five words never occurs: on all generators of period at most 119, and on all generators with two values. In the default mode, with overlapping samples, it fails with two samples or more whenever all samples of a run have the same order, whichever of the 120 it is (constant generators and counters among them): the quadratic form in the table of diehard_operm5.h is then at least 89 n.", "quantifier": "For all sequences of words, all numbers of samples as stated, all numbers of runs (33 or more, 12 with -k 3, for the final p-value).", "why_tests_cant": "Quantifies over all sequences of words of a given period or range; the table has 14400 entries and the form must be positive for each order.", "anchors": ["libdieharder/diehard_operm5.c", "include/dieharder/diehard_operm5.h"]}
{"id": "C154", "title": "Power of diehard_birthdays", "statement": "A default run of diehard_birthdays (100 samples, 24 bits or more) puts the samples into the classes 0 to 5, by their numbers of repeated spacings, and has 5 degrees of freedom. It fails whenever in every run 60 samples or more are in one class, or no sample has 1 or 2 repeated spacings. So it fails on every generator all samples of which have the same number of repeated spacings, also if that is more than 5 and no class counts them; a generator with a period that divides 512 is of this kind, provided the loop does not read beyond the array (C30) in the sample that recurs.", "quantifier": "For all sequences of numbers, all numbers of runs (33 or more, 12 with -k 3, for the final p-value).", "why_tests_cant": "Quantifies over all sequences of 51200 numbers; samples beyond the last class are not counted anywhere, so only the missing ones can give them away.", "anchors": ["libdieharder/diehard_birthdays.c", "libdieharder/chisq.c"]}
{"id": "C155", "title": "Power of dab_dct", "statement": "With the default 256-word blocks (or any power of two) and more than 5 blocks per place, the p-value of a run of dab_dct is at most exp(-0.9 len), about 10^-100 by default, whenever the largest cosine coefficients of all its blocks are found at no more than half of the places. This is so for every generator whose period divides the length of the blocks (16 or more): its blocks are equal but for the rotation, of which there are at most five. It is also so for every generator that is constant within each block, whatever its values are from block to block, because then all coefficients but the constant one are 0. The test over 33 or more such runs fails.", "quantifier": "For all sequences of words of 1 to 32 bits (31 without masked shift counts), all block lengths that are powers of two, all numbers of blocks over 5 len, all initial contents of the arrays.", "why_tests_cant": "Quantifies over all sequences of 12.8 million words; the coefficients are real numbers, and which generators peak at few places cannot be sampled.", "anchors": ["libdieharder/dab_dct.c", "libdieharder/chisq.c"]}
{"id": "C156", "title": "Power of dab_filltree", "statement": "In a default run of dab_filltree (15 million trees of 32 cells, keys other than 0) the second p-value is at most exp(-234000) if no tree ends at some one of the 16 positions, and the first is at most exp(-800) if no tree takes some one number of keys from 5 to 14. Keys (the numbers after rotation) that have at most four values, in whatever order they come, are always found out by the second p-value: the path that turns right at every node needs five ascending keys, so that no tree ends at the last position. With five values it can be reached.", "quantifier": "For all sequences of keys other than 0.", "why_tests_cant": "Quantifies over all sequences of up to 240 million keys; that a position cannot be reached is an invariant of the tree under all insertions.", "anchors": ["libdieharder/dab_filltree.c", "libdieharder/chisq.c"]}
{"id": "C157", "title": "dab_filltree2 and small periods", "statement": "The first p-value of a default run of dab_filltree2 (5 million trees of 128 cells) is at most exp(-25) whenever the bits it reads, from the least significant bit of each word on, have a period of 72 or less: there are then at most 72 different trees, so that one of the 73 commonest numbers of paths never occurs. This covers every constant generator and every generator of period 2, of whatever width.", "quantifier": "For all widths and all generators with such a period.", "why_tests_cant": "Quantifies over all bit patterns of up to 72 bits (2^72 generators) and runs of up to 3.8 thousand million bits.", "anchors": ["libdieharder/dab_filltree2.c", "libdieharder/chisq.c"]}
{"id": "C158", "title": "The rotation in dab_filltree", "statement": "dab_filltree fills its first tree with the draws as they are and the others with the draws rotated to the left, by 1 bit up to a quarter of the trees and by one bit more after each quarter (so only one tree of millions sees the numbers of the generator unrotated, and there are five rotations, six if the number of trees is no multiple of four). With generators of 5 bits or more that never deliver 0 both tables count exactly these trees. Whatever the rotations do, a default run gives a second p-value of at most exp(-234000) on every generator with at most four values. For 32-bit generators the first draw is shifted by 32 places, which the language leaves undefined.", "quantifier": "For all sequences of draws, widths of 5 to 32 bits, numbers of trees from 12 on, and trees of up to 41 cells.", "why_tests_cant": "The rotation schedule is not visible in any output; quantifies over all sequences of draws.", "anchors": ["libdieharder/dab_filltree.c"]}
{"id": "C159", "title": "Kuiper's statistic and intervals", "statement": "The statistic that kstest_kuiper forms from a sample in [0,1) answers to every interval: if k of the n p-values lie in (a,b], it is at least the difference between k/n and b-a, less 1/n; too few p-values in a long interval count like too many in a short one. With -k 3, if that difference is 1/n+w or more and n w^2 is at least 9.6721, the final p-value is below 0.000001. Changing m of the n p-values to whatever values moves Kuiper's statistic by at most m/n and the one that kstest_kuiper forms by at most (m+1)/n.", "quantifier": "For all samples of two or more values in [0,1), all intervals in [0,1), and all replacements.", "why_tests_cant": "Quantifies over all samples of reals, all intervals and all changes of part of a sample.", "anchors": ["libdieharder/kstest.c"]}
