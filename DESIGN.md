# Formal model of tildeleb/hashland in Lean 4 - design

## 1. Shape of the model

| directory (under `lean/Verif`) | contents |
|---|---|
| `Go.lean` | `U8/U32/U64`, `Fault`, `Go α = Except Fault α`, indexing, slicing, stores, counted loops |
| `Model/*.lean` | the code, function by function; every definition cites the file and lines of `/repo` it models |
| `Gen/*.lean` | instruction lists and tables copied mechanically out of `/repo` by `tools/gen_*.py` |
| `Arx.lean` | a small add-rotate-xor register language with an interpreter; target of the Threefish generator |
| `Spec/*.lean` | specifications; they never mention the model (published algorithm definitions, the `hash.Hash` contract, counting functions, enumerations) |
| `Lemmas/*.lean` | helper lemmas |
| `Props/*.lean` | the property theorems `Cnn_...`, each with a non-vacuity `example` or an instance theorem; the repository's own test vectors are re-checked there as `example`s (these test the fidelity of model and spec; they are tests, not the proofs) |

### 1.1 Semantics used for Go
* `uint8/uint32/uint64` are `BitVec 8/32/64`: wrap-around is exact. Shifts by a run-time amount follow Go (no masking of the count).
* `int` and `len` are `Nat`/`Int` (unbounded); conversions such as `uint32(len(k))`, `byte(i>>8)` truncate where the code does.
* A call returns `Go α = Except Fault α`. `Fault` distinguishes index out of range, slice out of range, explicit `panic(msg)`,
  integer division by zero, an `unsafe` load outside the slice (undefined in Go, hence a fault of its own) and `diverge`
  (a loop that ran out of the fuel the model gives it). The totality theorems show that `diverge` never happens, so the fuel is not observable.
* Mutation through a pointer receiver is a function returning the new state. A call that panics has no resulting state; output
  already produced by callbacks is kept where a property is about it (`Model.Ht.Calls`).
* Slices are lists of values. Where aliasing is the point of the property an explicit memory is used: a heap of byte arrays with
  (array, offset, length) headers for C10, a heap with capacities for C57 (`Model/KeccakHeap`), numbered windows of one memory for the Threefish
  in-place interface C62.
* `*(*uint64)(unsafe.Pointer(..))` and `reflect.SliceHeader` casts are modelled on a little-endian machine that allows unaligned loads
  (amd64), the only platform the code's fast paths claim; a load outside the slice is the fault `unsafeLoad`.
* Package-level mutable state (`hashf`'s hash objects and seed buffers, `nullhash`'s counter, `ht`'s flags) is threaded explicitly.

### 1.2 Semantics used for the other languages
* **x86-64** (`siphash/*.s`): `Model/X86.lean` interprets the instructions that occur in the two files (MOVQ/MOVB loads, ADDQ, XORQ, ORQ,
  SHLQ, ROLQ, CMPQ, DECQ, LEAQ, conditional jumps) over 64-bit registers, flags and a byte memory with access faults; the instruction lists
  are generated from the `.s` text by `tools/gen_sipasm.py`. Plan 9 operand order and frame offsets are interpreted by the generator.
* **C** (`keccak/*.c, *.h`): `Model/KeccakCPerm.lean` is the macro-expanded permutation (opt64, lane complementing `UseBebigokimisa`, unrolling as the
  settings header selects), generated by `tools/gen_keccakc.py`; `Model/KeccakC.lean` is the sponge, NIST interface and cgo wrapper by
  hand. `unsigned int` is `BitVec 32`, `unsigned long long` `BitVec 64`. The macros for other
  settings (unrolling, complemented lanes, byte order, SIMD units) are in `Gen/KeccakCVariants.lean` and `Model/KeccakCConfig.lean` (C122), with the sponge on top in `Model/KeccakCAny.lean` (C128); the SIMD intrinsics are modelled as
  pairs of words. `_MSC_VER` and alignment are not modelled.
* **float64**: rounding to nearest even to 53 bits, exponents unlimited: over the rationals in `Model/RBetween.lean` (`rbetween`, C101; `HashQuality`
  and printing, C105), over the reals in `Model/FloatR.lean` (`check` and the confidence search of smhasher, C75, C109, C110). C11 states
  `HashQuality` over exact rationals.

## 2. Trusted base
* Lean 4.33.0's kernel and the axioms `propext`, `Classical.choice`, `Quot.sound`, nothing else: no axioms of our own, no compiled
  evaluation. Section 6 lists the axioms of every theorem.
* My reading of the Go, C and assembly source (cited line by line) and the semantics listed above.
* The generators in `tools/` (line-by-line transcription; their output is committed and can be diffed against `/repo`).
* The specifications in `Spec/` as renderings of the published algorithms; they are exercised by the published test vectors in `Props/`.
* Standard library and external packages are not verified. `bufio.ReadString`, `sort.Sort`, `append`, `copy`, maps are given their documented meaning.
  `primes.NextPrime`, `math/rand`, `aeshash`, `hash/adler32`, `crypto/sha1`, `dchest/blake2b`, `jzelinskie/whirlpool` are
  arbitrary functions, parameters of the model (`Model.Hashf.Ext`); the theorems hold for every choice, except that C99 and C106 with `-p` assume
  that `NextPrime` neither shrinks a table nor makes it too large to allocate (`PrimeSizes`; C99_next_prime derives it from its documented meaning). `Ext.keccak224` is also a parameter there; C97_keyed_use
  proves that the modelled C object supplies it.

### Modelled
`hashtable` (all but `Print`'s formatting), `siphash` (Go, generic and streaming, and both `.s` files), `siphashpg`, `murmur3`, `jenkins`, `spooky`, `metro`, `farm`
(basics, platform, na, uo, mk, cc), `gomap`, `sbox`, `crapwow`, `mahash`, `nullhash`, `keccakpg`, `keccak` (Go + C), `threefish`, `hashf`, `smhasher`, `ht.go`,
`jenkins/example`, `nhash` (as the contract the hashers are compared with).

### Not modelled
Printing and formatting (only the values printed where a property is about them), wall-clock timing (`tdiff`, `Dur`), the flag and pprof packages, memory exhaustion
(except the address-space panic of `make`), weak-memory effects of data races (C107 interleaves whole statements, C127 single memory accesses; nothing in the repository starts a goroutine), functions inside comments,
`hashf.hashspatch` and `DispEntry` (dead code), the output of jenkins' `Check`, fused multiply-add on platforms where the compiler emits it (arm64), the `nullhash`/`siphashpg/example` timing loops.

## 3. Per-property plan
| id | what is modelled | proof |
|---|---|---|
| C01 | `NextLog2` on BitVec 32 | case analysis on each bisection step, Nat arithmetic |
| C02 | `NewHashTable` (NextPrime as parameter) | C01 + shift/power lemmas |
| C03-C06, C08, C09 | `Insert` as state transformer with the hash as a parameter | invariant + induction over the insert history; refinement to the list of inserted keys |
| C07 | same, open addressing | probe-sequence invariant over circular scans |
| C10 | `Insert` on an explicit heap | frame argument, induction over events |
| C11 | `HashQuality` numerator/denominator as exact rationals | sums |
| C12 | `diff`, tables | loop invariant on nibbles |
| C13-C18 | `siphash/hash.go`, `hash128.go`, `siphash.go`, `siphashpg/siphash.go` | chunk-fold refinement to the SipHash spec; streaming invariant |
| C19,C20 | x86-64 subset interpreter, transcription of the `.s` files | symbolic execution of basic blocks + loop induction, any message length |
| C21-C26 | `murmur3/*` | chunk-fold refinement; streaming invariant; inverse functions for injectivity |
| C27,C28 | `jenkins` mixers | explicit inverses; witnesses where false |
| C29-C31 | `Hash232`, `Hash264`, fast and slow | chunk-fold refinement; collision family for C30 |
| C32-C39 | `HashWords*`, `Jenkins364`, streaming states | same; refuted parts by universally quantified counterexamples |
| C40,C41 | `spooky` | explicit inverses; totality via chunk lemma |
| C42-C44 | `metro` | totality; universal statements (ignored bytes, parity) |
| C45-C47 | `farm` | totality by length arithmetic, equality with the published algorithm; bijectivity |
| C48-C50 | `gomap` | loads in bounds; odd-multiplier injectivity |
| C51-C54 | `sbox`, `crapwow`, `mahash`, `nullhash` | folds |
| C55-C59 | `keccakpg` | streaming invariant; linear algebra of theta (order 192); heap model for C57 |
| C60-C64 | `threefish` (generated Arx programs) | instruction reversal for inversion; verified reordering check + round-by-round comparison for C61 |
| C65-C70, C82-C84 | `ht.go` helpers, generators, tests | mixed-radix counters, list induction |
| C71-C75, C85-C91 | `smhasher` generators, reports | induction on recursion depth, loop invariants |
| C76-C81, C92 | `hashf.Hashf` dispatcher over the modelled packages, externals as parameters | case analysis over names; history induction |
| C93-C97 | package `keccak`: macro-expanded C permutation, C sponge, NIST interface, Go wrapper | lane-complement relation round by round; queue invariant of the sponge |
| C98 | `Sum`/`Size`/`BlockSize`/`HashSizeInBits` of every streaming hasher | corollaries of the history theorems |
| C99 | `runTestsWithFileAndHashes` and `main`'s mode switch with all flags, the files and the mutable `n` | induction over the test table and the hash list; composition with C02, C04, C08, C65, C68, C70, C82, C83 |
| C100 | the same with `-dru`: `*n = -*n` persists between runs | induction over runs |
| C101 | `rbetween` with IEEE rounding | monotonicity and representability of rounding |
| C102 | `benchmark32g`, `benchmark32s` | loop counting |
| C103, C104 | `jenkins/example`: duplicates, keys hashed, `stu`, `driver2` | loop invariants, bit lemmas |
| C105 | `HashTable.Print`: unit conversion and ratios | arithmetic |
| C106 | capacity of the table of each test against its number of keys | arithmetic of `slots`; `Broken` of C99 |
| C107 | `Hashf` as statements of interleaved goroutines over shared package variables | refinement to C81 call by call; explicit schedules for the races |
| C108 | `Halloc` and calls through the interface it returns | induction over histories, C81 |
| C109 | `RunSMhasher` over a stateful hash function, with reports and results; the `-sm` loop of `ht` (`smMain`) | call sequences per test from C71-C75, C85-C91; induction over tests |
| C110 | lines 534-551 of `avalancheTest1` as a big-step loop in `float64` | bounds on repeated rounded addition; first stopping index |
| C111 | `Insert` again with `Trace`, `Tcnt`, `pd` and its `Printf`s, in a monad of output and panics (`Model/Trace.lean`) | refinement to the model of C03-C09; induction over the probes; induction over the history for numbering and replay |
| C112 | the loop of `bench` of siphashpg/example (`Model/SipExample.lean`) | from C17 and C18; the first key decides about a panic |
| C113 | `Insert` with a hash that can panic (`Model/HashTableF.lean`) and with the state kept at the panic (`Model/HashTableP.lean`) | refinement of the total-hash model by induction on the loop and on the history; the walk over a full table in closed form |
| C114 | the streaming hashers with their slices on a heap (`Model/StreamHeap.lean`; `append` as in C57's model) | one simulation theorem for programs over any number of objects with disjoint arrays; per package a relation between the object with its array and the bytes written |
| C115 | goroutines sharing a Threefish cipher: every call cut into its accesses to memory, interleaved by a schedule (`Model/ThreefishConc.lean`) | a call is the sequence of its accesses; invariant: what a goroutine still has to do, run from the present cipher, gives the result of the call made alone; counting steps; an explicit schedule for the refutation |
| C116 | murmur3, gomap, hashf, hashtable as modelled for C21-C25, C48-C49, C81, C04-C06 | the hash is total and injective in the block, and there are as many block contents as values, so it is onto; residues by counting; flooding by steering the last block of `n` different prefixes |
| C117 | ht, hashf, smhasher as modelled for C99, C81, C109 | the hash of C25/C49 is one-to-one on the keys of the test, so the list of hashes has no repetition; evenness from C116_even by counting byte strings as numbers; repetitions by induction over the integers beyond 2^32 |
| C118 | jenkins as modelled for C29, C31, C33; hashf; hashtable | the mixing of one block and everything after it is a bijection of the three-word state (C35), and adding the words of a block reaches every state exactly once; the count of each part of the state follows by a fibre count; floods as in C116 |
| C119 | the calls of KeccakSponge.h and KeccakNISTInterface.h on one object (`Model/KeccakCApi.lean` over `Model/KeccakC.lean`) | invariant that relates the object to a bit string and an output position (`CInv`); the incomplete byte and the one- or two-block padding by cases; the squeeze loop by induction over the bytes still to write; specification `Spec/KeccakBits.lean` (bit lists, pad10*1, state machine of the calls) |
| C120 | `sanity` and `avalancheTest` of `Model/RunSM.lean` with a hash function that keeps state and always returns | loop invariants that relate the state to the list of calls made (`Spec/SmCalls.lean`); `C120_recorded` instantiates them with a hash function that records its keys |
| C121 | all methods of the three Jenkins objects, as one transition per call (`Model/JenkinsCalls.lean`) | simulation of the transitions of `Spec/JenkinsCalls.lean` (lookup3 from two remembered words), lifted to histories by induction |
| C122 | KeccakF-1600-opt64.c in every build setting (`Gen/KeccakCVariants.lean`, `Model/KeccakCConfig.lean`) | each macro file's round is one round of Keccak-f on a representation of the state; any unrolling by induction on its program; calls simulate `Spec/KeccakBuild.lean`, histories by induction |
| C123 | spooky.SpookyHashShort and the four result widths, Hashf, Insert | the words of a window enter the four-word state one-to-one (rest fixed) and every later step is a bijection of the state; counting by `count_part`; collisions and floods as in C116 |
| C124 | farm.Hash32, Hash64, Hash128 with and without seeds, Hashf, Insert | through C45 on `Spec/Farm.lean`: each window enters the state one-to-one and all later steps and the output compression (with the dropped words) are bijections; counting by `count_part`; collisions for all seeds because the dispatcher drops the seed |
| C125 | metro.Hash64_1, Hash64_2, Hash128_1, Hash128_2, Hashf, Insert | through C42 and C43 on `Spec/Metro.lean`: a block is a bijection of its content onto the state, and everything after whole blocks depends on the state, the length and the rest of the key only |
| C126 | hashf.Hashf under all names, crapwow.CrapWow, Insert | pigeonhole over the keys of one length (C78 gives a value for each, C80 seed independence); doubled blocks cancel in CrapWow by C52; floods as in C116 |
| C127 | Insert as a small-step program over a heap of slices, interleaved goroutines with and without a lock | lock: a call that runs alone refines the sequential Insert, invariant over schedules; no lock: invariant labelling every array with the calls whose keys it holds; explicit schedules for the races |
| C128 | KeccakSponge.c, KeccakNISTInterface.c and keccak.go over any build of C122 and any `ProvideFast` macros (`Model/KeccakCAny.lean`) | a simulation relation between the object in any setting and the object in the settings of /repo, function by function; histories by induction, then C94 and C119 |
| C129 | `hashQuality` of C11 | sum of c(c+1) over buckets = 2n + 2·(pairs sharing a bucket) by induction on the keys; extremes by sums of squares; means by exchanging the sums over the family and over pairs |
| C130 | `insertAll` of C04, C07 | chaining from C04-C06; open addressing is simulated by parking on a circle (`Lemmas/Parking.lean`), where two adjacent inserts commute, and a permutation is a sequence of such swaps |
| C131 | the same | the flow between neighbouring slots is conserved at every insert; a potential C(C+1)/2 summed around the circle gives the identity, which summed over all assignments (a key as the last one, by C130) gives the recurrence T(n+1) = (n+1)T(n) + n(n+1)/2·m^n and Knuth's sum; slots by turning the circle |
| C132 | `insertAll` of C04-C07, `HashSet` of the SMHasher model | the statistics of one run in closed form (C05, C06, C131), double counting over the assignments; injections are counted by the falling factorial, and the birthday bound is an induction on n |
| C133 | the same | second moments: the number of equal pairs grows by the load of the bucket hit, so its square obeys a recurrence in n; pairs of empty buckets are counted directly; Chebyshev's inequality |
| C134 | `avalanche` of C90 | bits as signs; inverting one output bit at one key is an involution of the functions that makes all mixed terms cancel; the lower bound is Cauchy-Schwarz over the loads |
| C135 | `RunSMhasher` of C109 | a report means a collision in a key set (C109); a set is listed without repetition, so the pairs are counted and the shares summed over all sets |
| C136 | `insertAll` of C04, C05 | k keys in one bucket: union over the k-subsets and buckets; injections by the falling factorial |
| C137 | `Hashf`, `RunSMhasher` of C109 | a concrete pair of keys of the test with equal hashes (evaluated by the kernel) and C109, which says that a set with a collision is reported |
| C138 | `insert` of C131 | the difference of two of Knuth's sums (C131); the falling factorials are bounded by powers and the series summed |
| C139 | `Sum32`, `Sum128` of C21, C23; the SMHasher run of C109 | equal values force the mixed tails to differ by less than 4 (16); undoing the multiplications and the rotation leaves a short list of constants, none of which two tails can differ by |
| C140 | `Print` and `HashQuality` in float64 (C105) | numerators and denominator are exact integers; the relative gap between two different numerators exceeds the sum of the relative errors of the roundings that follow |
| C141 | `Insert` with two hash functions | simulation: the two runs of the loop keep tables that differ in `Dups` only; single-bit changes add or subtract 2^i, which an odd size does not divide |
| C142 | `TestL`, `Insert` (`Dups`), the test program | counting lemmas on lists (Cauchy-Schwarz for the pigeonhole bound) applied to the run described by C99 |
| C143 | `Insert` and the test program under the call counters | induction over the keys (free buckets ahead of the counter); every call gets a fresh value; the call history only grows through `main` |
| C144 | `Insert` under any hash | induction over the keys with invariants relating the counters to the buckets; a scan meets distinct occupied buckets |

## 4. Properties that are false of the code
Where the property a user would expect is false of the code, the entry of `properties.jsonl` states exactly what does hold and says what
is refuted; the theorems prove the exact characterisation for all inputs and a theorem named `..._violated` refutes the expected form. No
theorem carries the suffix `_partial`, because no statement is proved only in part. Affected: C24 (murmur3 `Sum`), C28 (mix64alt), C30 (Hash232
on short keys), C34-C39 (Jenkins wrappers), C43/C44 (metro), C52 (CrapWow), C53 (MaHash rotations), C57 (keccakpg aliasing), C59 (NewCustom), C63 (New64),
C46 (farm seeds), C49 (gomap middle group), C66 (non-ASCII), C68 (empty and unterminated lines), C69 (mrun), C78-C81 (dispatcher), C82 (TestC, TestG), C83 and C100 (-dru), C84 (TestK),
C85 and C87 (smhasher keys), C92 (flags), C96 (keccak writes), C98 (murmur3 `Size`), C99 and C106 (runs that panic), C101 (rbetween), C102 and C103 (benchmarks), C107 (concurrent
calls), C108 (`Halloc`), C109 (`-sm`), C113 (recovering), C114 (struct copies), C115 (a shared cipher), C121 (one-shot calls on Jenkins objects), C126 (seeds and floods), C127 (concurrent `Insert`), C130 (`Probes` and the order), C134 (two-byte avalanche).

## 5. Testing the theorems
`seeded/LOG.jsonl` records the seeded bugs: an edit of a model definition in a scratch copy, the claim it makes false, the manifest theorems whose
proof no longer goes through (their own declaration fails, or depends on one that fails), and what was tightened when a theorem survived.

## 6. Axioms of each theorem
Generated by `tools/axioms.py` from `#print axioms`; names relative to `Verif.Props`.

* **no axioms** (6): C112_seed, C56_reset_fields, C82_flags, C86_zeros_never_run, C92_selected, C98_nullhash

* **Classical.choice, Quot.sound, propext** (420): C01_nextLog2_least, C01_nextLog2_covers, C02_outcome, C02_geometry, C02_too_large, C03_no_index_fault, C05_chain_stats, C06_oa_dups, C07_oa_contents, C08_panics_iff_full, C09_oa_stats, C10_insert_copies, C10_same_outcome, C100_buckets, C100_dru_violated, C100_unused, C100_two_buckets, C101_rounding, C101_zero, C101_full_range, C101_bounds, C101_exact, C101_violated, C101_below_violated, C101_testK, C102_counts, C102_hardcoded_total, C102_object, C102_object_distinct, C102_hashf, C102_all, C102_all_violated, C103_adjacent, C103_sorted, C103_keys64, C103_benchmark64, C103_benchmark32, C103_main_words, C104_driver2, C104_one_bit, C104_real, C104_main, C105_time, C105_chain, C105_oa, C106_fits, C106_overflow, C107_classes, C107_safe, C107_serial, C107_stolen, C107_siphash64pg, C107_panic, C107_violated, C108_names, C108_hashf, C108_violated, C109_function, C109_calls, C109_counter, C109_hashf, C109_seedless, C109_all_violated, C11_quality_chain, C11_quality_empty, C11_quality_oa, C110_search, C110_bounds, C111_short_key, C111_chain, C111_open_addressing, C111_full, C111_trace_rebuilds, C112_bench, C112_panics, C112_keys, C113_chain, C113_open, C114_murmur32, C114_murmur64, C114_murmur128, C114_jenkins332c, C114_jenkins364, C114_jenkins232, C114_copy_shares, C114_copy_violated, ThreefishConc.C115_exclusive, ThreefishConc.C115_finish, ThreefishConc.C115_shared_violated, C116_murmur32, C116_murmur128, C116_gomap_last, C116_gomap_block, C116_even, C116_collisions, C116_flood, C117_one_to_one, C117_no_duplicates, C117_even, C117_repeats, C117_smhasher, C118_lookup3, C118_lookup2, C118_hash264, C118_collisions, C118_flood, C119_history, C119_one_shot, C120_avalanche, C120_sanity, C120_recorded, C121_history364, C121_history332, C121_history232, C121_reset, C121_seeded, C121_oneshot_violated, C122_builds, C122_same, C122_memory, C122_compiled, C123_short, C123_widths, C123_halves, C123_collisions, C123_flood, C124_hash32, C124_hash32_long, C124_hash64, C124_hash128Seed, C124_hash128, C124_collisions, C124_flood, C125_second_preimage, C125_collisions, C125_flood, C126_all_names, C126_flood, C126_crapwow, C126_prefix, C127_layout, C127_locked, C127_locked_all, C127_unlocked, C127_count, C127_apart, C127_lost_violated, C127_crash_violated, C127_oa_violated, C128_any, C128_same, C128_history, C128_bad_init, C128_hash, C128_standard, C128_write_total_violated, Quality.C129_pairs, Quality.C129_order, Quality.C129_universal, Quality.C129_mean, Quality.C129_worst, Quality.C129_floor, Quality.C129_best, Parking.C130_chain, Parking.C130_oa, Parking.C130_probes_violated, Parking.C131_flow, Parking.C131_extremes, Parking.C131_probes, Parking.C131_walk, Parking.C131_slots, Random.C132_heads, Random.C132_cols, Random.C132_dups, Random.C132_false_alarm, Spread.C133_dups, Spread.C133_quality, Spread.C133_heads, Coins.C134_mean, Coins.C134_coins, Coins.C134_repeats, Coins.C134_two_bytes_violated, Alarm.C135_run, Alarm.C135_random, Longest.C136_longest, Certain.C137_twins, Certain.C137_seedless, Certain.C137_pass, NextInsert.C138_next, NextInsert.C138_total, Murmur3Short.C139_tails32, Murmur3Short.C139_tails128, Murmur3Short.C139_small_keys, Printed.C140_order, Printed.C140_one, Printed.C140_oa, Bits.C141_same_homes, Bits.C141_low_bits, Bits.C141_mask_flip, Bits.C141_prime_flip, Bits.C141_j264l, DupCounts.C142_testL, DupCounts.C142_pigeonhole, DupCounts.C142_adler32, Counter.C143_spread, Counter.C143_run, Counter.C143_nullhash, Counter.C143_main, StatBounds.C144_chain, StatBounds.C144_oa, StatRuns.C144_quality, StatRuns.C144_main, C17_panics_iff, C18_decode_encode, C18_encode_decode, C19_asm_hash, C20_asm_hash128, C22_stream32, C26_history32, C23_sum128_is_murmur3, C23_stream128, C26_history64, C26_history128, C24_sum32, C24_sum128, C25_injective128, C25_one_block128, C25_extend128, C26_pending, C27_mixers_bijective, C29_hash232, C29_hash232_short, C30_short_keys, C30_short_keys_violated, C31_hash264, C32_words_bytes, C33_jenkins364, C34_panics_iff, C34_prefix, C34_whole, C35_stream332c, C35_stream364, C35_history232, C36_history332c, C36_history364, C36_sum_violated, C37_sum, C38_seeds_ignored, C38_seeds364, C39_guard, C39_value, C40_mixers_bijective, C40_mixers_are_published, C41_spooky, C41_short, C41_widths, C42_total, C42_published, C43_published, C43_last_byte_skipped, C43_last_byte_ignored, C43_every_byte_violated, C44_even_parity, C44_half, C44_sixteenth, C44_range_violated, C45_farm, C46_seed64, C46_seeds64, C46_seed32, C46_seed32_violated, C47_rotations, C47_bijections32, C47_bijections64, C48_total, C48_fails_iff_empty, C49_last_group32, C49_last_group64, C49_one_group32, C49_one_group64, C49_short, C49_seed, C51_fold, C51_sticky_seed, C51_accumulator, C51_same_range, C51_seed_collision, C52_sum, C52_sticky_seed, C52_order_violated, C52_pairs_cancel, C53_fold, C55_stream, C55_standard, C55_chunks, C56_sum_unobservable, C56_reset, C57_polite, C57_retained, C57_overwritten, C57_io_writer_violated, C57_digest_changes, C58_permutation, C58_is_keccakf, C59_exact, C59_ignored, C59_every_byte_violated, C59_influence, C59_rounds, C59_zero_block, Threefish.C60_decrypt64, Threefish.C60_injective, Threefish.C60_decrypt_encrypt, Threefish.C60_encrypt_decrypt, Threefish.C61_encrypt64, Threefish.C62_encrypt, Threefish.C62_decrypt, Threefish.C62_round_trip, Threefish.C63_new64_bytes, Threefish.C63_new64_256_noop, Threefish.C63_words_same, Threefish.C63_block_size_violated, Threefish.C63_round_trip_violated, Threefish.C64_new, Threefish.C64_short_tweak, Threefish.C64_rekey, Threefish.C64_same_behaviour, C65_enumerates, C65_ascii, C65_distinct, C65_testH, C67_total, C67_roundtrip, C69_runs, C69_sorted, C70_testI_distinct, C70_testJ, C70_testL, C71_setbits, C71_sparse, C71_reports, C72_twoNonZero, C72_all, C72_reports, C73_permutation, C73_reports, C74_flipBit, C75_collisions, C75_check, C75_checkKeys, C75_single_unreported, C75_rounding, C76_width, C76_perfecthash_narrow, C77_j364, C77_j264, C77_xor, C78_unknown_name, C78_short_key, C78_violated, C79_swapped, C79_violated, C80_ignored, C80_low_half, C80_low_half_used, C80_high_half_used, C80_siphash, C80_violated, C81_history, C81_independent, C81_nullhash_violated, C82_chain_total, C84_hash_of_zeros, C85_smallKeys, C85_reports, C85_empty_violated, C86_prefixes, C86_reports, C87_text, C87_reports, C87_letters_violated, C88_cyclic, C88_reports, C89_windowed, C90_avalanche, C91_sanity, C91_seeds, C92_run, C93_permutation, C93_absorb, C93_decode_injective, C94_history, C94_short_writes, C94_one_shot, C95_packages_agree, C96_write_outcomes, C96_never_returns, C96_write_total_violated, C97_keyed_use, C97_uses, C97_hashf, C98_murmur3, C98_murmur64_violated, C98_jenkins, C98_keccakpg, C98_keccak, C98_widths, C99_order, C99_results, C99_first_panic, C99_test_M, C99_no_file, C99_trace_L, C99_hashf_determined, C99_hashf_hashes, C99_default_panics, C99_dichotomy, C99_total, C99_hashf_decided, C99_next_prime

* **Quot.sound, propext** (100): C02_fields, C02_negative, C02_truncation, C03_trace_short_key, C04_chain_contents, C06_chain_dups, C100_reachable, C102_generic, C102_hardcoded, C103_benchmark32_violated, C103_stu, C103_main_prints, C104_success_iff, C107_alone, C111_table_unchanged, C113_frame, C113_trace, C113_stored, C113_violated, C114_siphash64, C114_siphash128, ThreefishConc.C115_one_byte_user, C119_bytes, C119_bad_init, C12_diff, C13_hash_is_siphash24, Murmur3Short.C139_four_bytes, C14_hash128_is_siphash24_128, Bits.C141_dups_may_differ, C15_stream64, C15_stream128, C16_contract64, C16_contract128, C17_general_rounds, C17_packages_agree64, C17_packages_agree128, C18_half_rounds, C18_round_bijective, C21_sum32_is_murmur3, C24_violated, C25_injective32, C25_one_block32, C25_extend32, C27_mixers_are_published, C28_restatements, C28_mix64alt_violated, C34_negative, C34_prefix_violated, C37_sum_violated, C39_guard_violated, C43_not_published, C45_fingerprints, C47_multipliers_odd, C48_empty, C49_middle_violated, C49_middle64_violated, C52_zero_block, C53_rot14, C53_lrot64_bits, C53_lrot64_merges, C53_lrot64_range, C53_lrot64_violated, C53_step_merges, C53_exchange_inj, C54_counter, C56_sum_pure, C59_negative_block, Threefish.C64_new64, Threefish.C64_newSize, C65_excluded, C66_reverse, C66_ascii, C66_reverses_iff, C66_injective, C66_violated, C68_readFile, C68_every_file, C68_delivers, C68_violated, C69_every_slice, C70_testI, C74_hash, C78_unknown_listed, C80_all_names, C82_inserts_lines, C82_transforms, C82_injective, C82_testC_violated, C83_histogram, C83_panics, C84_outcome, C84_violated, C97_sizes, C97_reset, C97_sum_pure, C97_error_visible, C98_siphash, C98_blocks, C99_no_seed, C99_labels

* **propext** (10): C01_nextLog2_small, C02_prime, C108_info, C37_write64, C50_readers_agree, C54_not_a_function, C68_missing, C69_mrun_violated, C92_selected_iff, C92_halves_skipped
