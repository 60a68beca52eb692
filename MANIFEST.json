{
 "claims": [
  {
   "property": "C01",
   "status": "proved",
   "theorems": [
    "Verif.Props.C01_nextLog2_least",
    "Verif.Props.C01_nextLog2_small",
    "Verif.Props.C01_nextLog2_covers"
   ],
   "note": ""
  },
  {
   "property": "C02",
   "status": "proved",
   "theorems": [
    "Verif.Props.C02_outcome",
    "Verif.Props.C02_geometry",
    "Verif.Props.C02_fields",
    "Verif.Props.C02_prime",
    "Verif.Props.C02_negative",
    "Verif.Props.C02_truncation",
    "Verif.Props.C02_too_large"
   ],
   "note": "primes.NextPrime is an arbitrary parameter; NextLog2(size)+extra >= 64 gives a table with no buckets (C02_too_large)."
  },
  {
   "property": "C03",
   "status": "proved",
   "theorems": [
    "Verif.Props.C03_no_index_fault",
    "Verif.Props.C03_trace_short_key"
   ],
   "note": "Trace off; with Trace on, btoi panics on keys shorter than 4 bytes (C03_trace_short_key)."
  },
  {
   "property": "C04",
   "status": "proved",
   "theorems": [
    "Verif.Props.C04_chain_contents"
   ],
   "note": ""
  },
  {
   "property": "C05",
   "status": "proved",
   "theorems": [
    "Verif.Props.C05_chain_stats"
   ],
   "note": ""
  },
  {
   "property": "C06",
   "status": "proved",
   "theorems": [
    "Verif.Props.C06_chain_dups",
    "Verif.Props.C06_oa_dups"
   ],
   "note": ""
  },
  {
   "property": "C07",
   "status": "proved",
   "theorems": [
    "Verif.Props.C07_oa_contents"
   ],
   "note": ""
  },
  {
   "property": "C08",
   "status": "proved",
   "theorems": [
    "Verif.Props.C08_panics_iff_full"
   ],
   "note": ""
  },
  {
   "property": "C09",
   "status": "proved",
   "theorems": [
    "Verif.Props.C09_oa_stats"
   ],
   "note": ""
  },
  {
   "property": "C10",
   "status": "proved",
   "theorems": [
    "Verif.Props.C10_insert_copies",
    "Verif.Props.C10_same_outcome"
   ],
   "note": ""
  },
  {
   "property": "C100",
   "status": "proved",
   "theorems": [
    "Verif.Props.C100_buckets",
    "Verif.Props.C100_dru_violated",
    "Verif.Props.C100_reachable",
    "Verif.Props.C100_unused",
    "Verif.Props.C100_two_buckets"
   ],
   "note": "the documented meaning of -dru is refuted"
  },
  {
   "property": "C101",
   "status": "proved",
   "theorems": [
    "Verif.Props.C101_rounding",
    "Verif.Props.C101_zero",
    "Verif.Props.C101_full_range",
    "Verif.Props.C101_bounds",
    "Verif.Props.C101_exact",
    "Verif.Props.C101_violated",
    "Verif.Props.C101_below_violated",
    "Verif.Props.C101_testK"
   ],
   "note": "float64 as rationals rounded to nearest even, unlimited exponent range (never exceeded here)"
  },
  {
   "property": "C102",
   "status": "proved",
   "theorems": [
    "Verif.Props.C102_generic",
    "Verif.Props.C102_counts",
    "Verif.Props.C102_hardcoded",
    "Verif.Props.C102_hardcoded_total",
    "Verif.Props.C102_object",
    "Verif.Props.C102_object_distinct",
    "Verif.Props.C102_hashf",
    "Verif.Props.C102_all",
    "Verif.Props.C102_all_violated"
   ],
   "note": "timing is not modelled"
  },
  {
   "property": "C103",
   "status": "proved",
   "theorems": [
    "Verif.Props.C103_adjacent",
    "Verif.Props.C103_sorted",
    "Verif.Props.C103_keys64",
    "Verif.Props.C103_benchmark64",
    "Verif.Props.C103_benchmark32",
    "Verif.Props.C103_benchmark32_violated",
    "Verif.Props.C103_stu",
    "Verif.Props.C103_main_words",
    "Verif.Props.C103_main_prints"
   ],
   "note": "sort.Sort is a parameter that sorts"
  },
  {
   "property": "C104",
   "status": "proved",
   "theorems": [
    "Verif.Props.C104_driver2",
    "Verif.Props.C104_success_iff",
    "Verif.Props.C104_one_bit",
    "Verif.Props.C104_real",
    "Verif.Props.C104_main"
   ],
   "note": ""
  },
  {
   "property": "C105",
   "status": "proved",
   "theorems": [
    "Verif.Props.C105_time",
    "Verif.Props.C105_chain",
    "Verif.Props.C105_oa"
   ],
   "note": "formatting by fmt and hrff is not modelled"
  },
  {
   "property": "C106",
   "status": "proved",
   "theorems": [
    "Verif.Props.C106_fits",
    "Verif.Props.C106_overflow"
   ],
   "note": "the panic ends the program by C99_first_panic"
  },
  {
   "property": "C107",
   "status": "proved",
   "theorems": [
    "Verif.Props.C107_alone",
    "Verif.Props.C107_classes",
    "Verif.Props.C107_safe",
    "Verif.Props.C107_serial",
    "Verif.Props.C107_stolen",
    "Verif.Props.C107_siphash64pg",
    "Verif.Props.C107_panic",
    "Verif.Props.C107_violated"
   ],
   "note": "statements are atomic and interleaved (sequential consistency); safety of the 29 names also says they have no shared access at all"
  },
  {
   "property": "C108",
   "status": "proved",
   "theorems": [
    "Verif.Props.C108_names",
    "Verif.Props.C108_hashf",
    "Verif.Props.C108_violated",
    "Verif.Props.C108_info"
   ],
   "note": ""
  },
  {
   "property": "C109",
   "status": "proved",
   "theorems": [
    "Verif.Props.C109_function",
    "Verif.Props.C109_calls",
    "Verif.Props.C109_counter",
    "Verif.Props.C109_hashf",
    "Verif.Props.C109_seedless",
    "Verif.Props.C109_all_violated"
   ],
   "note": "what is computed from the avalanche grid (C90) has no effect, and the search for its confidence bound ends (C110); only reports are modelled, not progress output"
  },
  {
   "property": "C11",
   "status": "proved",
   "theorems": [
    "Verif.Props.C11_quality_chain",
    "Verif.Props.C11_quality_empty",
    "Verif.Props.C11_quality_oa"
   ],
   "note": "Exact rationals; float64 rounding in C105."
  },
  {
   "property": "C110",
   "status": "proved",
   "theorems": [
    "Verif.Props.C110_search",
    "Verif.Props.C110_bounds"
   ],
   "note": "math.Erf and math.Pow are parameters with erf(x)=1 for x>=6 and pow(1,n)=1"
  },
  {
   "property": "C111",
   "status": "proved",
   "theorems": [
    "Verif.Props.C111_table_unchanged",
    "Verif.Props.C111_short_key",
    "Verif.Props.C111_chain",
    "Verif.Props.C111_open_addressing",
    "Verif.Props.C111_full",
    "Verif.Props.C111_trace_rebuilds"
   ],
   "note": "the values printed, not their formatting; the lines of open addressing for a stateless hash function"
  },
  {
   "property": "C112",
   "status": "proved",
   "theorems": [
    "Verif.Props.C112_seed",
    "Verif.Props.C112_bench",
    "Verif.Props.C112_panics",
    "Verif.Props.C112_keys"
   ],
   "note": "timing is not modelled"
  },
  {
   "property": "C113",
   "status": "proved",
   "theorems": [
    "Verif.Props.C113_frame",
    "Verif.Props.C113_chain",
    "Verif.Props.C113_open",
    "Verif.Props.C113_trace",
    "Verif.Props.C113_stored",
    "Verif.Props.C113_violated"
   ],
   "note": "the expected atomicity is refuted; the trace counter Tcnt is left out"
  },
  {
   "property": "C114",
   "status": "proved",
   "theorems": [
    "Verif.Props.C114_murmur32",
    "Verif.Props.C114_murmur64",
    "Verif.Props.C114_murmur128",
    "Verif.Props.C114_jenkins332c",
    "Verif.Props.C114_jenkins364",
    "Verif.Props.C114_jenkins232",
    "Verif.Props.C114_siphash64",
    "Verif.Props.C114_siphash128",
    "Verif.Props.C114_copy_shares",
    "Verif.Props.C114_copy_violated"
   ],
   "note": "a call is one step; that struct copies are independent is refuted"
  },
  {
   "property": "C115",
   "status": "proved",
   "theorems": [
    "Verif.Props.ThreefishConc.C115_exclusive",
    "Verif.Props.ThreefishConc.C115_finish",
    "Verif.Props.ThreefishConc.C115_one_byte_user",
    "Verif.Props.ThreefishConc.C115_shared_violated"
   ],
   "note": "word accesses are sequentially consistent; goroutines have slices of their own; SetKey and SetTweak are not called meanwhile"
  },
  {
   "property": "C116",
   "status": "proved",
   "theorems": [
    "Verif.Props.C116_murmur32",
    "Verif.Props.C116_murmur128",
    "Verif.Props.C116_gomap_last",
    "Verif.Props.C116_gomap_block",
    "Verif.Props.C116_even",
    "Verif.Props.C116_collisions",
    "Verif.Props.C116_flood"
   ],
   "note": "aeshash and the library hashes are outside"
  },
  {
   "property": "C117",
   "status": "proved",
   "theorems": [
    "Verif.Props.C117_one_to_one",
    "Verif.Props.C117_no_duplicates",
    "Verif.Props.C117_even",
    "Verif.Props.C117_repeats",
    "Verif.Props.C117_smhasher"
   ],
   "note": "the program-level theorems are for the command lines of C99_total (at most 11 extra bits, acceptable files, sizes that can be allocated)"
  },
  {
   "property": "C118",
   "status": "proved",
   "theorems": [
    "Verif.Props.C118_lookup3",
    "Verif.Props.C118_lookup2",
    "Verif.Props.C118_hash264",
    "Verif.Props.C118_collisions",
    "Verif.Props.C118_flood"
   ],
   "note": "the Hash232 count is for keys below 2^32 bytes, the lengths its 32-bit length word can hold (C29)"
  },
  {
   "property": "C119",
   "status": "proved",
   "theorems": [
    "Verif.Props.C119_history",
    "Verif.Props.C119_one_shot",
    "Verif.Props.C119_bytes",
    "Verif.Props.C119_bad_init"
   ],
   "note": ""
  },
  {
   "property": "C12",
   "status": "proved",
   "theorems": [
    "Verif.Props.C12_diff"
   ],
   "note": ""
  },
  {
   "property": "C120",
   "status": "proved",
   "theorems": [
    "Verif.Props.C120_avalanche",
    "Verif.Props.C120_sanity",
    "Verif.Props.C120_recorded"
   ],
   "note": ""
  },
  {
   "property": "C121",
   "status": "proved",
   "theorems": [
    "Verif.Props.C121_history364",
    "Verif.Props.C121_history332",
    "Verif.Props.C121_history232",
    "Verif.Props.C121_reset",
    "Verif.Props.C121_seeded",
    "Verif.Props.C121_oneshot_violated"
   ],
   "note": "C121_oneshot_violated refutes the expected form."
  },
  {
   "property": "C122",
   "status": "proved",
   "theorems": [
    "Verif.Props.C122_builds",
    "Verif.Props.C122_same",
    "Verif.Props.C122_memory",
    "Verif.Props.C122_compiled"
   ],
   "note": "The macro files are generated by tools/gen_keccakbuild.py."
  },
  {
   "property": "C123",
   "status": "proved",
   "theorems": [
    "Verif.Props.C123_short",
    "Verif.Props.C123_widths",
    "Verif.Props.C123_halves",
    "Verif.Props.C123_collisions",
    "Verif.Props.C123_flood"
   ],
   "note": "windows of 32 bytes; keys of 192 bytes and more only for SpookyHashShort"
  },
  {
   "property": "C124",
   "status": "proved",
   "theorems": [
    "Verif.Props.C124_hash32",
    "Verif.Props.C124_hash32_long",
    "Verif.Props.C124_hash64",
    "Verif.Props.C124_hash128Seed",
    "Verif.Props.C124_hash128",
    "Verif.Props.C124_collisions",
    "Verif.Props.C124_flood"
   ],
   "note": "the windows named in the statement; other windows of long keys are not claimed"
  },
  {
   "property": "C125",
   "status": "proved",
   "theorems": [
    "Verif.Props.C125_second_preimage",
    "Verif.Props.C125_collisions",
    "Verif.Props.C125_flood"
   ],
   "note": ""
  },
  {
   "property": "C126",
   "status": "proved",
   "theorems": [
    "Verif.Props.C126_all_names",
    "Verif.Props.C126_flood",
    "Verif.Props.C126_crapwow",
    "Verif.Props.C126_prefix"
   ],
   "note": "existence by counting for the names in general, by construction for CrapWow"
  },
  {
   "property": "C127",
   "status": "proved",
   "theorems": [
    "Verif.Props.C127_layout",
    "Verif.Props.C127_locked",
    "Verif.Props.C127_locked_all",
    "Verif.Props.C127_unlocked",
    "Verif.Props.C127_count",
    "Verif.Props.C127_apart",
    "Verif.Props.C127_lost_violated",
    "Verif.Props.C127_crash_violated",
    "Verif.Props.C127_oa_violated"
   ],
   "note": "sequentially consistent interleaving of single memory accesses, slices with capacity in a heap; the hash function is pure and Trace is off"
  },
  {
   "property": "C128",
   "status": "proved",
   "theorems": [
    "Verif.Props.C128_any",
    "Verif.Props.C128_same",
    "Verif.Props.C128_history",
    "Verif.Props.C128_bad_init",
    "Verif.Props.C128_hash",
    "Verif.Props.C128_standard",
    "Verif.Props.C128_write_total_violated"
   ],
   "note": ""
  },
  {
   "property": "C129",
   "status": "proved",
   "theorems": [
    "Verif.Props.Quality.C129_pairs",
    "Verif.Props.Quality.C129_order",
    "Verif.Props.Quality.C129_universal",
    "Verif.Props.Quality.C129_mean",
    "Verif.Props.Quality.C129_worst",
    "Verif.Props.Quality.C129_floor",
    "Verif.Props.Quality.C129_best"
   ],
   "note": "Exact rationals; float64 rounding in C105."
  },
  {
   "property": "C13",
   "status": "proved",
   "theorems": [
    "Verif.Props.C13_hash_is_siphash24"
   ],
   "note": ""
  },
  {
   "property": "C130",
   "status": "proved",
   "theorems": [
    "Verif.Props.Parking.C130_chain",
    "Verif.Props.Parking.C130_oa",
    "Verif.Props.Parking.C130_probes_violated"
   ],
   "note": ""
  },
  {
   "property": "C131",
   "status": "proved",
   "theorems": [
    "Verif.Props.Parking.C131_flow",
    "Verif.Props.Parking.C131_extremes",
    "Verif.Props.Parking.C131_probes",
    "Verif.Props.Parking.C131_walk",
    "Verif.Props.Parking.C131_slots"
   ],
   "note": ""
  },
  {
   "property": "C132",
   "status": "proved",
   "theorems": [
    "Verif.Props.Random.C132_heads",
    "Verif.Props.Random.C132_cols",
    "Verif.Props.Random.C132_dups",
    "Verif.Props.Random.C132_false_alarm"
   ],
   "note": ""
  },
  {
   "property": "C133",
   "status": "proved",
   "theorems": [
    "Verif.Props.Spread.C133_dups",
    "Verif.Props.Spread.C133_quality",
    "Verif.Props.Spread.C133_heads"
   ],
   "note": ""
  },
  {
   "property": "C134",
   "status": "proved",
   "theorems": [
    "Verif.Props.Coins.C134_mean",
    "Verif.Props.Coins.C134_coins",
    "Verif.Props.Coins.C134_repeats",
    "Verif.Props.Coins.C134_two_bytes_violated"
   ],
   "note": ""
  },
  {
   "property": "C135",
   "status": "proved",
   "theorems": [
    "Verif.Props.Alarm.C135_run",
    "Verif.Props.Alarm.C135_random"
   ],
   "note": ""
  },
  {
   "property": "C136",
   "status": "proved",
   "theorems": [
    "Verif.Props.Longest.C136_longest"
   ],
   "note": ""
  },
  {
   "property": "C137",
   "status": "proved",
   "theorems": [
    "Verif.Props.Certain.C137_twins",
    "Verif.Props.Certain.C137_seedless",
    "Verif.Props.Certain.C137_pass"
   ],
   "note": ""
  },
  {
   "property": "C138",
   "status": "proved",
   "theorems": [
    "Verif.Props.NextInsert.C138_next",
    "Verif.Props.NextInsert.C138_total"
   ],
   "note": ""
  },
  {
   "property": "C139",
   "status": "proved",
   "theorems": [
    "Verif.Props.Murmur3Short.C139_tails32",
    "Verif.Props.Murmur3Short.C139_tails128",
    "Verif.Props.Murmur3Short.C139_four_bytes",
    "Verif.Props.Murmur3Short.C139_small_keys"
   ],
   "note": ""
  },
  {
   "property": "C14",
   "status": "proved",
   "theorems": [
    "Verif.Props.C14_hash128_is_siphash24_128"
   ],
   "note": ""
  },
  {
   "property": "C140",
   "status": "proved",
   "theorems": [
    "Verif.Props.Printed.C140_order",
    "Verif.Props.Printed.C140_one",
    "Verif.Props.Printed.C140_oa"
   ],
   "note": "float64 as in C105; formatting by fmt is not modelled"
  },
  {
   "property": "C141",
   "status": "proved",
   "theorems": [
    "Verif.Props.Bits.C141_same_homes",
    "Verif.Props.Bits.C141_low_bits",
    "Verif.Props.Bits.C141_mask_flip",
    "Verif.Props.Bits.C141_prime_flip",
    "Verif.Props.Bits.C141_j264l",
    "Verif.Props.Bits.C141_dups_may_differ"
   ],
   "note": "keys long enough for the trace output when Trace is on"
  },
  {
   "property": "C142",
   "status": "proved",
   "theorems": [
    "Verif.Props.DupCounts.C142_testL",
    "Verif.Props.DupCounts.C142_pigeonhole",
    "Verif.Props.DupCounts.C142_adler32"
   ],
   "note": "for the command lines of C99_total; adler32 of Go's library is a parameter, assumed to be that of RFC 1950 in the third theorem"
  },
  {
   "property": "C143",
   "status": "proved",
   "theorems": [
    "Verif.Props.Counter.C143_spread",
    "Verif.Props.Counter.C143_run",
    "Verif.Props.Counter.C143_nullhash",
    "Verif.Props.Counter.C143_main"
   ],
   "note": "closes the case of the two names that the theorems of C99 about contents leave out; keys long enough for the trace output when Trace is on"
  },
  {
   "property": "C144",
   "status": "proved",
   "theorems": [
    "Verif.Props.StatBounds.C144_chain",
    "Verif.Props.StatBounds.C144_oa",
    "Verif.Props.StatRuns.C144_quality",
    "Verif.Props.StatRuns.C144_main"
   ],
   "note": "C144_chain and C144_oa: keys long enough for the trace output when Trace is on; C144_main: no such condition, the run is complete"
  },
  {
   "property": "C15",
   "status": "proved",
   "theorems": [
    "Verif.Props.C15_stream64",
    "Verif.Props.C15_stream128"
   ],
   "note": ""
  },
  {
   "property": "C16",
   "status": "proved",
   "theorems": [
    "Verif.Props.C16_contract64",
    "Verif.Props.C16_contract128"
   ],
   "note": ""
  },
  {
   "property": "C17",
   "status": "proved",
   "theorems": [
    "Verif.Props.C17_panics_iff",
    "Verif.Props.C17_general_rounds",
    "Verif.Props.C17_packages_agree64",
    "Verif.Props.C17_packages_agree128"
   ],
   "note": ""
  },
  {
   "property": "C18",
   "status": "proved",
   "theorems": [
    "Verif.Props.C18_decode_encode",
    "Verif.Props.C18_encode_decode",
    "Verif.Props.C18_half_rounds",
    "Verif.Props.C18_round_bijective"
   ],
   "note": ""
  },
  {
   "property": "C19",
   "status": "proved",
   "theorems": [
    "Verif.Props.C19_asm_hash"
   ],
   "note": "Instruction list generated from the .s file; machine model in Model/X86.lean."
  },
  {
   "property": "C20",
   "status": "proved",
   "theorems": [
    "Verif.Props.C20_asm_hash128"
   ],
   "note": "As C19."
  },
  {
   "property": "C21",
   "status": "proved",
   "theorems": [
    "Verif.Props.C21_sum32_is_murmur3"
   ],
   "note": ""
  },
  {
   "property": "C22",
   "status": "proved",
   "theorems": [
    "Verif.Props.C22_stream32",
    "Verif.Props.C26_history32"
   ],
   "note": ""
  },
  {
   "property": "C23",
   "status": "proved",
   "theorems": [
    "Verif.Props.C23_sum128_is_murmur3",
    "Verif.Props.C23_stream128"
   ],
   "note": ""
  },
  {
   "property": "C24",
   "status": "proved",
   "theorems": [
    "Verif.Props.C26_history32",
    "Verif.Props.C26_history64",
    "Verif.Props.C26_history128",
    "Verif.Props.C24_sum32",
    "Verif.Props.C24_sum128",
    "Verif.Props.C24_violated"
   ],
   "note": "Exactly what Sum appends in every history, and the refutation of the hash.Hash contract."
  },
  {
   "property": "C25",
   "status": "proved",
   "theorems": [
    "Verif.Props.C25_injective32",
    "Verif.Props.C25_injective128",
    "Verif.Props.C25_one_block32",
    "Verif.Props.C25_one_block128",
    "Verif.Props.C25_extend32",
    "Verif.Props.C25_extend128"
   ],
   "note": ""
  },
  {
   "property": "C26",
   "status": "proved",
   "theorems": [
    "Verif.Props.C26_history32",
    "Verif.Props.C26_history64",
    "Verif.Props.C26_history128",
    "Verif.Props.C26_pending"
   ],
   "note": ""
  },
  {
   "property": "C27",
   "status": "proved",
   "theorems": [
    "Verif.Props.C27_mixers_bijective",
    "Verif.Props.C27_mixers_are_published"
   ],
   "note": ""
  },
  {
   "property": "C28",
   "status": "proved",
   "theorems": [
    "Verif.Props.C28_restatements",
    "Verif.Props.C28_mix64alt_violated"
   ],
   "note": "mix64alt = mix64 is refuted."
  },
  {
   "property": "C29",
   "status": "proved",
   "theorems": [
    "Verif.Props.C29_hash232",
    "Verif.Props.C29_hash232_short"
   ],
   "note": ""
  },
  {
   "property": "C30",
   "status": "proved",
   "theorems": [
    "Verif.Props.C30_short_keys",
    "Verif.Props.C30_short_keys_violated"
   ],
   "note": ""
  },
  {
   "property": "C31",
   "status": "proved",
   "theorems": [
    "Verif.Props.C31_hash264"
   ],
   "note": ""
  },
  {
   "property": "C32",
   "status": "proved",
   "theorems": [
    "Verif.Props.C32_words_bytes"
   ],
   "note": ""
  },
  {
   "property": "C33",
   "status": "proved",
   "theorems": [
    "Verif.Props.C33_jenkins364"
   ],
   "note": ""
  },
  {
   "property": "C34",
   "status": "proved",
   "theorems": [
    "Verif.Props.C34_panics_iff",
    "Verif.Props.C34_prefix",
    "Verif.Props.C34_whole",
    "Verif.Props.C34_negative",
    "Verif.Props.C34_prefix_violated"
   ],
   "note": ""
  },
  {
   "property": "C35",
   "status": "proved",
   "theorems": [
    "Verif.Props.C35_stream332c",
    "Verif.Props.C35_stream364",
    "Verif.Props.C35_history232"
   ],
   "note": ""
  },
  {
   "property": "C36",
   "status": "proved",
   "theorems": [
    "Verif.Props.C36_history332c",
    "Verif.Props.C36_history364",
    "Verif.Props.C36_sum_violated"
   ],
   "note": ""
  },
  {
   "property": "C37",
   "status": "proved",
   "theorems": [
    "Verif.Props.C37_write64",
    "Verif.Props.C37_sum",
    "Verif.Props.C37_sum_violated"
   ],
   "note": ""
  },
  {
   "property": "C38",
   "status": "proved",
   "theorems": [
    "Verif.Props.C38_seeds_ignored",
    "Verif.Props.C38_seeds364"
   ],
   "note": ""
  },
  {
   "property": "C39",
   "status": "proved",
   "theorems": [
    "Verif.Props.C39_guard",
    "Verif.Props.C39_value",
    "Verif.Props.C39_guard_violated"
   ],
   "note": ""
  },
  {
   "property": "C40",
   "status": "proved",
   "theorems": [
    "Verif.Props.C40_mixers_bijective",
    "Verif.Props.C40_mixers_are_published"
   ],
   "note": ""
  },
  {
   "property": "C41",
   "status": "proved",
   "theorems": [
    "Verif.Props.C41_spooky",
    "Verif.Props.C41_short",
    "Verif.Props.C41_widths"
   ],
   "note": ""
  },
  {
   "property": "C42",
   "status": "proved",
   "theorems": [
    "Verif.Props.C42_total",
    "Verif.Props.C42_published"
   ],
   "note": ""
  },
  {
   "property": "C43",
   "status": "proved",
   "theorems": [
    "Verif.Props.C43_published",
    "Verif.Props.C43_last_byte_skipped",
    "Verif.Props.C43_last_byte_ignored",
    "Verif.Props.C43_every_byte_violated",
    "Verif.Props.C43_not_published"
   ],
   "note": ""
  },
  {
   "property": "C44",
   "status": "proved",
   "theorems": [
    "Verif.Props.C44_even_parity",
    "Verif.Props.C44_half",
    "Verif.Props.C44_sixteenth",
    "Verif.Props.C44_range_violated"
   ],
   "note": ""
  },
  {
   "property": "C45",
   "status": "proved",
   "theorems": [
    "Verif.Props.C45_farm",
    "Verif.Props.C45_fingerprints"
   ],
   "note": ""
  },
  {
   "property": "C46",
   "status": "proved",
   "theorems": [
    "Verif.Props.C46_seed64",
    "Verif.Props.C46_seeds64",
    "Verif.Props.C46_seed32",
    "Verif.Props.C46_seed32_violated"
   ],
   "note": ""
  },
  {
   "property": "C47",
   "status": "proved",
   "theorems": [
    "Verif.Props.C47_rotations",
    "Verif.Props.C47_bijections32",
    "Verif.Props.C47_bijections64",
    "Verif.Props.C47_multipliers_odd"
   ],
   "note": ""
  },
  {
   "property": "C48",
   "status": "proved",
   "theorems": [
    "Verif.Props.C48_total",
    "Verif.Props.C48_empty",
    "Verif.Props.C48_fails_iff_empty"
   ],
   "note": ""
  },
  {
   "property": "C49",
   "status": "proved",
   "theorems": [
    "Verif.Props.C49_last_group32",
    "Verif.Props.C49_last_group64",
    "Verif.Props.C49_one_group32",
    "Verif.Props.C49_one_group64",
    "Verif.Props.C49_middle_violated",
    "Verif.Props.C49_middle64_violated",
    "Verif.Props.C49_short",
    "Verif.Props.C49_seed"
   ],
   "note": ""
  },
  {
   "property": "C50",
   "status": "proved",
   "theorems": [
    "Verif.Props.C50_readers_agree"
   ],
   "note": ""
  },
  {
   "property": "C51",
   "status": "proved",
   "theorems": [
    "Verif.Props.C51_fold",
    "Verif.Props.C51_sticky_seed",
    "Verif.Props.C51_accumulator",
    "Verif.Props.C51_same_range",
    "Verif.Props.C51_seed_collision"
   ],
   "note": ""
  },
  {
   "property": "C52",
   "status": "proved",
   "theorems": [
    "Verif.Props.C52_sum",
    "Verif.Props.C52_sticky_seed",
    "Verif.Props.C52_order_violated",
    "Verif.Props.C52_pairs_cancel",
    "Verif.Props.C52_zero_block"
   ],
   "note": ""
  },
  {
   "property": "C53",
   "status": "proved",
   "theorems": [
    "Verif.Props.C53_fold",
    "Verif.Props.C53_rot14",
    "Verif.Props.C53_lrot64_bits",
    "Verif.Props.C53_lrot64_merges",
    "Verif.Props.C53_lrot64_range",
    "Verif.Props.C53_lrot64_violated",
    "Verif.Props.C53_step_merges",
    "Verif.Props.C53_exchange_inj"
   ],
   "note": ""
  },
  {
   "property": "C54",
   "status": "proved",
   "theorems": [
    "Verif.Props.C54_counter",
    "Verif.Props.C54_not_a_function"
   ],
   "note": ""
  },
  {
   "property": "C55",
   "status": "proved",
   "theorems": [
    "Verif.Props.C55_stream",
    "Verif.Props.C55_standard",
    "Verif.Props.C55_chunks"
   ],
   "note": ""
  },
  {
   "property": "C56",
   "status": "proved",
   "theorems": [
    "Verif.Props.C56_sum_pure",
    "Verif.Props.C56_sum_unobservable",
    "Verif.Props.C56_reset",
    "Verif.Props.C56_reset_fields"
   ],
   "note": ""
  },
  {
   "property": "C57",
   "status": "proved",
   "theorems": [
    "Verif.Props.C57_polite",
    "Verif.Props.C57_retained",
    "Verif.Props.C57_overwritten",
    "Verif.Props.C57_io_writer_violated",
    "Verif.Props.C57_digest_changes"
   ],
   "note": ""
  },
  {
   "property": "C58",
   "status": "proved",
   "theorems": [
    "Verif.Props.C58_permutation",
    "Verif.Props.C58_is_keccakf"
   ],
   "note": ""
  },
  {
   "property": "C59",
   "status": "proved",
   "theorems": [
    "Verif.Props.C59_exact",
    "Verif.Props.C59_ignored",
    "Verif.Props.C59_every_byte_violated",
    "Verif.Props.C59_influence",
    "Verif.Props.C59_rounds",
    "Verif.Props.C59_zero_block",
    "Verif.Props.C59_negative_block"
   ],
   "note": ""
  },
  {
   "property": "C60",
   "status": "proved",
   "theorems": [
    "Verif.Props.Threefish.C60_decrypt64",
    "Verif.Props.Threefish.C60_injective",
    "Verif.Props.Threefish.C60_decrypt_encrypt",
    "Verif.Props.Threefish.C60_encrypt_decrypt"
   ],
   "note": "Unrolled code generated from the Go files as an instruction list; every reachable cipher, any slice overlap."
  },
  {
   "property": "C61",
   "status": "proved",
   "theorems": [
    "Verif.Props.Threefish.C61_encrypt64"
   ],
   "note": ""
  },
  {
   "property": "C62",
   "status": "proved",
   "theorems": [
    "Verif.Props.Threefish.C62_encrypt",
    "Verif.Props.Threefish.C62_decrypt",
    "Verif.Props.Threefish.C62_round_trip"
   ],
   "note": ""
  },
  {
   "property": "C63",
   "status": "proved",
   "theorems": [
    "Verif.Props.Threefish.C63_new64_bytes",
    "Verif.Props.Threefish.C63_new64_256_noop",
    "Verif.Props.Threefish.C63_words_same",
    "Verif.Props.Threefish.C63_block_size_violated",
    "Verif.Props.Threefish.C63_round_trip_violated"
   ],
   "note": "The expected agreement of New64 with New is refuted."
  },
  {
   "property": "C64",
   "status": "proved",
   "theorems": [
    "Verif.Props.Threefish.C64_new",
    "Verif.Props.Threefish.C64_new64",
    "Verif.Props.Threefish.C64_newSize",
    "Verif.Props.Threefish.C64_short_tweak",
    "Verif.Props.Threefish.C64_rekey",
    "Verif.Props.Threefish.C64_same_behaviour"
   ],
   "note": ""
  },
  {
   "property": "C65",
   "status": "proved",
   "theorems": [
    "Verif.Props.C65_enumerates",
    "Verif.Props.C65_ascii",
    "Verif.Props.C65_distinct",
    "Verif.Props.C65_excluded",
    "Verif.Props.C65_testH"
   ],
   "note": ""
  },
  {
   "property": "C66",
   "status": "proved",
   "theorems": [
    "Verif.Props.C66_reverse",
    "Verif.Props.C66_ascii",
    "Verif.Props.C66_reverses_iff",
    "Verif.Props.C66_injective",
    "Verif.Props.C66_violated"
   ],
   "note": ""
  },
  {
   "property": "C67",
   "status": "proved",
   "theorems": [
    "Verif.Props.C67_total",
    "Verif.Props.C67_roundtrip"
   ],
   "note": ""
  },
  {
   "property": "C68",
   "status": "proved",
   "theorems": [
    "Verif.Props.C68_readFile",
    "Verif.Props.C68_every_file",
    "Verif.Props.C68_delivers",
    "Verif.Props.C68_missing",
    "Verif.Props.C68_violated"
   ],
   "note": "bufio.Reader.ReadString and the file are modelled as a byte list with an optional device error."
  },
  {
   "property": "C69",
   "status": "proved",
   "theorems": [
    "Verif.Props.C69_runs",
    "Verif.Props.C69_every_slice",
    "Verif.Props.C69_sorted",
    "Verif.Props.C69_mrun_violated"
   ],
   "note": ""
  },
  {
   "property": "C70",
   "status": "proved",
   "theorems": [
    "Verif.Props.C70_testI",
    "Verif.Props.C70_testI_distinct",
    "Verif.Props.C70_testJ",
    "Verif.Props.C70_testL"
   ],
   "note": "Together with C10 (Insert copies its key) the reused buffer does not matter."
  },
  {
   "property": "C71",
   "status": "proved",
   "theorems": [
    "Verif.Props.C71_setbits",
    "Verif.Props.C71_sparse",
    "Verif.Props.C71_reports"
   ],
   "note": ""
  },
  {
   "property": "C72",
   "status": "proved",
   "theorems": [
    "Verif.Props.C72_twoNonZero",
    "Verif.Props.C72_all",
    "Verif.Props.C72_reports"
   ],
   "note": ""
  },
  {
   "property": "C73",
   "status": "proved",
   "theorems": [
    "Verif.Props.C73_permutation",
    "Verif.Props.C73_reports"
   ],
   "note": ""
  },
  {
   "property": "C74",
   "status": "proved",
   "theorems": [
    "Verif.Props.C74_hash",
    "Verif.Props.C74_flipBit"
   ],
   "note": ""
  },
  {
   "property": "C75",
   "status": "proved",
   "theorems": [
    "Verif.Props.C75_collisions",
    "Verif.Props.C75_check",
    "Verif.Props.C75_checkKeys",
    "Verif.Props.C75_single_unreported",
    "Verif.Props.C75_rounding"
   ],
   "note": "float64 operations rounded to nearest even over the reals, int64 products wrapping; exponent range unlimited."
  },
  {
   "property": "C76",
   "status": "proved",
   "theorems": [
    "Verif.Props.C76_width",
    "Verif.Props.C76_perfecthash_narrow"
   ],
   "note": "all 32-bit entries, any history"
  },
  {
   "property": "C77",
   "status": "proved",
   "theorems": [
    "Verif.Props.C77_j364",
    "Verif.Props.C77_j264",
    "Verif.Props.C77_xor"
   ],
   "note": ""
  },
  {
   "property": "C78",
   "status": "proved",
   "theorems": [
    "Verif.Props.C78_unknown_name",
    "Verif.Props.C78_short_key",
    "Verif.Props.C78_unknown_listed",
    "Verif.Props.C78_violated"
   ],
   "note": "exact characterization of the panics; the expected property is refuted"
  },
  {
   "property": "C79",
   "status": "proved",
   "theorems": [
    "Verif.Props.C79_swapped",
    "Verif.Props.C79_violated"
   ],
   "note": "the halves are swapped for every key; the expected property is refuted"
  },
  {
   "property": "C80",
   "status": "proved",
   "theorems": [
    "Verif.Props.C80_all_names",
    "Verif.Props.C80_ignored",
    "Verif.Props.C80_low_half",
    "Verif.Props.C80_low_half_used",
    "Verif.Props.C80_high_half_used",
    "Verif.Props.C80_siphash",
    "Verif.Props.C80_violated"
   ],
   "note": "aeshash is outside the repository: a parameter"
  },
  {
   "property": "C81",
   "status": "proved",
   "theorems": [
    "Verif.Props.C81_history",
    "Verif.Props.C81_independent",
    "Verif.Props.C81_nullhash_violated"
   ],
   "note": "digests of whirlpool, blake2b, sha1, adler32, aeshash and C keccak are parameters"
  },
  {
   "property": "C82",
   "status": "proved",
   "theorems": [
    "Verif.Props.C82_inserts_lines",
    "Verif.Props.C82_chain_total",
    "Verif.Props.C82_transforms",
    "Verif.Props.C82_injective",
    "Verif.Props.C82_flags",
    "Verif.Props.C82_testC_violated"
   ],
   "note": ""
  },
  {
   "property": "C83",
   "status": "proved",
   "theorems": [
    "Verif.Props.C83_histogram",
    "Verif.Props.C83_panics"
   ],
   "note": ""
  },
  {
   "property": "C84",
   "status": "proved",
   "theorems": [
    "Verif.Props.C84_outcome",
    "Verif.Props.C84_hash_of_zeros",
    "Verif.Props.C84_violated"
   ],
   "note": ""
  },
  {
   "property": "C85",
   "status": "proved",
   "theorems": [
    "Verif.Props.C85_smallKeys",
    "Verif.Props.C85_reports",
    "Verif.Props.C85_empty_violated"
   ],
   "note": ""
  },
  {
   "property": "C86",
   "status": "proved",
   "theorems": [
    "Verif.Props.C86_prefixes",
    "Verif.Props.C86_reports",
    "Verif.Props.C86_zeros_never_run"
   ],
   "note": ""
  },
  {
   "property": "C87",
   "status": "proved",
   "theorems": [
    "Verif.Props.C87_text",
    "Verif.Props.C87_reports",
    "Verif.Props.C87_letters_violated"
   ],
   "note": ""
  },
  {
   "property": "C88",
   "status": "proved",
   "theorems": [
    "Verif.Props.C88_cyclic",
    "Verif.Props.C88_reports"
   ],
   "note": ""
  },
  {
   "property": "C89",
   "status": "proved",
   "theorems": [
    "Verif.Props.C89_windowed"
   ],
   "note": ""
  },
  {
   "property": "C90",
   "status": "proved",
   "theorems": [
    "Verif.Props.C90_avalanche"
   ],
   "note": ""
  },
  {
   "property": "C91",
   "status": "proved",
   "theorems": [
    "Verif.Props.C91_sanity",
    "Verif.Props.C91_seeds"
   ],
   "note": ""
  },
  {
   "property": "C92",
   "status": "proved",
   "theorems": [
    "Verif.Props.C92_selected",
    "Verif.Props.C92_selected_iff",
    "Verif.Props.C92_halves_skipped",
    "Verif.Props.C92_run"
   ],
   "note": ""
  },
  {
   "property": "C93",
   "status": "proved",
   "theorems": [
    "Verif.Props.C93_permutation",
    "Verif.Props.C93_absorb",
    "Verif.Props.C93_decode_injective"
   ],
   "note": "C code behind package keccak, little-endian, settings of the repo"
  },
  {
   "property": "C94",
   "status": "proved",
   "theorems": [
    "Verif.Props.C94_history",
    "Verif.Props.C94_short_writes",
    "Verif.Props.C94_one_shot"
   ],
   "note": "package keccak against the sponge specification"
  },
  {
   "property": "C95",
   "status": "proved",
   "theorems": [
    "Verif.Props.C95_packages_agree"
   ],
   "note": ""
  },
  {
   "property": "C96",
   "status": "proved",
   "theorems": [
    "Verif.Props.C96_write_outcomes",
    "Verif.Props.C96_never_returns",
    "Verif.Props.C96_write_total_violated"
   ],
   "note": "exact characterization; the expected totality is refuted"
  },
  {
   "property": "C97",
   "status": "proved",
   "theorems": [
    "Verif.Props.C97_sizes",
    "Verif.Props.C97_reset",
    "Verif.Props.C97_sum_pure",
    "Verif.Props.C97_error_visible",
    "Verif.Props.C97_keyed_use",
    "Verif.Props.C97_uses",
    "Verif.Props.C97_hashf"
   ],
   "note": ""
  },
  {
   "property": "C98",
   "status": "proved",
   "theorems": [
    "Verif.Props.C98_siphash",
    "Verif.Props.C98_murmur3",
    "Verif.Props.C98_murmur64_violated",
    "Verif.Props.C98_jenkins",
    "Verif.Props.C98_keccakpg",
    "Verif.Props.C98_keccak",
    "Verif.Props.C98_nullhash",
    "Verif.Props.C98_widths",
    "Verif.Props.C98_blocks"
   ],
   "note": "refuted for murmur3.New64, proved for the others"
  },
  {
   "property": "C99",
   "status": "proved",
   "theorems": [
    "Verif.Props.C99_order",
    "Verif.Props.C99_no_seed",
    "Verif.Props.C99_labels",
    "Verif.Props.C99_results",
    "Verif.Props.C99_first_panic",
    "Verif.Props.C99_test_M",
    "Verif.Props.C99_no_file",
    "Verif.Props.C99_trace_L",
    "Verif.Props.C99_hashf_determined",
    "Verif.Props.C99_hashf_hashes",
    "Verif.Props.C99_default_panics",
    "Verif.Props.C99_dichotomy",
    "Verif.Props.C99_total",
    "Verif.Props.C99_hashf_decided",
    "Verif.Props.C99_next_prime"
   ],
   "note": "what SMHasher and the benchmarks do is in C109 and C102; with -p the external primes.NextPrime must not shrink the size nor exceed the address space (PrimeSizes), which the least prime not below its argument satisfies by C99_next_prime"
  }
 ]
}