#!/usr/bin/env python3
"""Writes MANIFEST.json. Theorem names are relative to Verif.Props."""
import json
P, Q = "proved", "partial"
C = {}
def claim(pid, status, thms, note=""):
    C[pid] = {"property": pid, "status": status,
              "theorems": ["Verif.Props." + t for t in thms.split()], "note": note}

claim("C01", P, "C01_nextLog2_least C01_nextLog2_small C01_nextLog2_covers")
claim("C02", P, "C02_outcome C02_geometry C02_fields C02_prime C02_negative C02_truncation C02_too_large",
      "primes.NextPrime is an arbitrary parameter; NextLog2(size)+extra >= 64 gives a table with no buckets (C02_too_large).")
claim("C03", P, "C03_no_index_fault C03_trace_short_key",
      "Trace off; with Trace on, btoi panics on keys shorter than 4 bytes (C03_trace_short_key).")
claim("C04", P, "C04_chain_contents")
claim("C05", P, "C05_chain_stats")
claim("C06", P, "C06_chain_dups C06_oa_dups")
claim("C07", P, "C07_oa_contents")
claim("C08", P, "C08_panics_iff_full")
claim("C09", P, "C09_oa_stats")
claim("C10", P, "C10_insert_copies C10_same_outcome")
claim("C11", P, "C11_quality_chain C11_quality_empty C11_quality_oa", "Exact rationals; float64 rounding in C105.")
claim("C12", P, "C12_diff")
claim("C13", P, "C13_hash_is_siphash24")
claim("C14", P, "C14_hash128_is_siphash24_128")
claim("C15", P, "C15_stream64 C15_stream128")
claim("C16", P, "C16_contract64 C16_contract128")
claim("C17", P, "C17_panics_iff C17_general_rounds C17_packages_agree64 C17_packages_agree128")
claim("C18", P, "C18_decode_encode C18_encode_decode C18_half_rounds C18_round_bijective")
claim("C19", P, "C19_asm_hash", "Instruction list generated from the .s file; machine model in Model/X86.lean.")
claim("C20", P, "C20_asm_hash128", "As C19.")
claim("C21", P, "C21_sum32_is_murmur3")
claim("C22", P, "C22_stream32 C26_history32")
claim("C23", P, "C23_sum128_is_murmur3 C23_stream128")
claim("C24", P, "C26_history32 C26_history64 C26_history128 C24_sum32 C24_sum128 C24_violated", "Exactly what Sum appends in every history, and the refutation of the hash.Hash contract.")
claim("C25", P, "C25_injective32 C25_injective128 C25_one_block32 C25_one_block128 C25_extend32 C25_extend128")
claim("C26", P, "C26_history32 C26_history64 C26_history128 C26_pending")
claim("C27", P, "C27_mixers_bijective C27_mixers_are_published")
claim("C28", P, "C28_restatements C28_mix64alt_violated", "mix64alt = mix64 is refuted.")
claim("C29", P, "C29_hash232 C29_hash232_short")
claim("C30", P, "C30_short_keys C30_short_keys_violated")
claim("C31", P, "C31_hash264")
claim("C32", P, "C32_words_bytes")
claim("C33", P, "C33_jenkins364")
claim("C34", P, "C34_panics_iff C34_prefix C34_whole C34_negative C34_prefix_violated")
claim("C35", P, "C35_stream332c C35_stream364 C35_history232")
claim("C36", P, "C36_history332c C36_history364 C36_sum_violated")
claim("C37", P, "C37_write64 C37_sum C37_sum_violated")
claim("C38", P, "C38_seeds_ignored C38_seeds364")
claim("C39", P, "C39_guard C39_value C39_guard_violated")
claim("C40", P, "C40_mixers_bijective C40_mixers_are_published")
claim("C41", P, "C41_spooky C41_short C41_widths")
claim("C42", P, "C42_total C42_published")
claim("C43", P, "C43_published C43_last_byte_skipped C43_last_byte_ignored C43_every_byte_violated C43_not_published")
claim("C44", P, "C44_even_parity C44_half C44_sixteenth C44_range_violated")
claim("C45", P, "C45_farm C45_fingerprints")
claim("C46", P, "C46_seed64 C46_seeds64 C46_seed32 C46_seed32_violated")
claim("C47", P, "C47_rotations C47_bijections32 C47_bijections64 C47_multipliers_odd")
claim("C48", P, "C48_total C48_empty C48_fails_iff_empty")
claim("C49", P, "C49_last_group32 C49_last_group64 C49_one_group32 C49_one_group64 C49_middle_violated C49_middle64_violated C49_short C49_seed")
claim("C50", P, "C50_readers_agree")
claim("C51", P, "C51_fold C51_sticky_seed C51_accumulator C51_same_range C51_seed_collision")
claim("C52", P, "C52_sum C52_sticky_seed C52_order_violated C52_pairs_cancel C52_zero_block")
claim("C53", P, "C53_fold C53_rot14 C53_lrot64_bits C53_lrot64_merges C53_lrot64_range C53_lrot64_violated C53_step_merges C53_exchange_inj")
claim("C54", P, "C54_counter C54_not_a_function")
claim("C55", P, "C55_stream C55_standard C55_chunks")
claim("C56", P, "C56_sum_pure C56_sum_unobservable C56_reset C56_reset_fields")
claim("C57", P, "C57_polite C57_retained C57_overwritten C57_io_writer_violated C57_digest_changes")
claim("C58", P, "C58_permutation C58_is_keccakf")
claim("C59", P, "C59_exact C59_ignored C59_every_byte_violated C59_influence C59_rounds C59_zero_block C59_negative_block")
claim("C60", P, "Threefish.C60_decrypt64 Threefish.C60_injective Threefish.C60_decrypt_encrypt Threefish.C60_encrypt_decrypt", "Unrolled code generated from the Go files as an instruction list; every reachable cipher, any slice overlap.")
claim("C61", P, "Threefish.C61_encrypt64")
claim("C62", P, "Threefish.C62_encrypt Threefish.C62_decrypt Threefish.C62_round_trip")
claim("C63", P, "Threefish.C63_new64_bytes Threefish.C63_new64_256_noop Threefish.C63_words_same Threefish.C63_block_size_violated Threefish.C63_round_trip_violated", "The expected agreement of New64 with New is refuted.")
claim("C64", P, "Threefish.C64_new Threefish.C64_new64 Threefish.C64_newSize Threefish.C64_short_tweak Threefish.C64_rekey Threefish.C64_same_behaviour")
claim("C65", P, "C65_enumerates C65_ascii C65_distinct C65_excluded C65_testH")
claim("C66", P, "C66_reverse C66_ascii C66_reverses_iff C66_injective C66_violated")
claim("C67", P, "C67_total C67_roundtrip")
claim("C68", P, "C68_readFile C68_every_file C68_delivers C68_missing C68_violated", "bufio.Reader.ReadString and the file are modelled as a byte list with an optional device error.")
claim("C69", P, "C69_runs C69_every_slice C69_sorted C69_mrun_violated")
claim("C70", P, "C70_testI C70_testI_distinct C70_testJ C70_testL", "Together with C10 (Insert copies its key) the reused buffer does not matter.")
claim("C82", P, "C82_inserts_lines C82_chain_total C82_transforms C82_injective C82_flags C82_testC_violated")
claim("C83", P, "C83_histogram C83_panics")
claim("C84", P, "C84_outcome C84_hash_of_zeros C84_violated")
claim("C71", P, "C71_setbits C71_sparse C71_reports")
claim("C72", P, "C72_twoNonZero C72_all C72_reports")
claim("C73", P, "C73_permutation C73_reports")
claim("C74", P, "C74_hash C74_flipBit")
claim("C75", P, "C75_collisions C75_check C75_checkKeys C75_single_unreported C75_rounding", "float64 operations rounded to nearest even over the reals, int64 products wrapping; exponent range unlimited.")
claim("C85", P, "C85_smallKeys C85_reports C85_empty_violated")
claim("C86", P, "C86_prefixes C86_reports C86_zeros_never_run")
claim("C87", P, "C87_text C87_reports C87_letters_violated")
claim("C88", P, "C88_cyclic C88_reports")
claim("C89", P, "C89_windowed")
claim("C90", P, "C90_avalanche")
claim("C91", P, "C91_sanity C91_seeds")
claim("C76",P,"C76_width C76_perfecthash_narrow","all 32-bit entries, any history")
claim("C77",P,"C77_j364 C77_j264 C77_xor","")
claim("C78",P,"C78_unknown_name C78_short_key C78_unknown_listed C78_violated","exact characterization of the panics; the expected property is refuted")
claim("C79",P,"C79_swapped C79_violated","the halves are swapped for every key; the expected property is refuted")
claim("C80",P,"C80_all_names C80_ignored C80_low_half C80_low_half_used C80_high_half_used C80_siphash C80_violated","aeshash is outside the repository: a parameter")
claim("C81",P,"C81_history C81_independent C81_nullhash_violated","digests of whirlpool, blake2b, sha1, adler32, aeshash and C keccak are parameters")
claim("C92",P,"C92_selected C92_selected_iff C92_halves_skipped C92_run","")
claim("C93", P, "C93_permutation C93_absorb C93_decode_injective", "C code behind package keccak, little-endian, settings of the repo")
claim("C94", P, "C94_history C94_short_writes C94_one_shot", "package keccak against the sponge specification")
claim("C95", P, "C95_packages_agree", "")
claim("C96", P, "C96_write_outcomes C96_never_returns C96_write_total_violated", "exact characterization; the expected totality is refuted")
claim("C97", P, "C97_sizes C97_reset C97_sum_pure C97_error_visible C97_keyed_use C97_uses C97_hashf", "")
claim("C98", P, "C98_siphash C98_murmur3 C98_murmur64_violated C98_jenkins C98_keccakpg C98_keccak C98_nullhash C98_widths C98_blocks", "refuted for murmur3.New64, proved for the others")
claim("C99", P, "C99_order C99_no_seed C99_labels C99_results C99_first_panic C99_test_M C99_no_file C99_trace_L C99_hashf_determined C99_hashf_hashes C99_default_panics C99_dichotomy C99_total C99_hashf_decided C99_next_prime", "what SMHasher and the benchmarks do is in C109 and C102; with -p the external primes.NextPrime must not shrink the size nor exceed the address space (PrimeSizes), which the least prime not below its argument satisfies by C99_next_prime")
claim("C100", P, "C100_buckets C100_dru_violated C100_reachable C100_unused C100_two_buckets", "the documented meaning of -dru is refuted")
claim("C106", P, "C106_fits C106_overflow", "the panic ends the program by C99_first_panic")
claim("C101", P, "C101_rounding C101_zero C101_full_range C101_bounds C101_exact C101_violated C101_below_violated C101_testK", "float64 as rationals rounded to nearest even, unlimited exponent range (never exceeded here)")
claim("C102", P, "C102_generic C102_counts C102_hardcoded C102_hardcoded_total C102_object C102_object_distinct C102_hashf C102_all C102_all_violated", "timing is not modelled")
claim("C103", P, "C103_adjacent C103_sorted C103_keys64 C103_benchmark64 C103_benchmark32 C103_benchmark32_violated C103_stu C103_main_words C103_main_prints", "sort.Sort is a parameter that sorts")
claim("C104", P, "C104_driver2 C104_success_iff C104_one_bit C104_real C104_main", "")
claim("C107", P, "C107_alone C107_classes C107_safe C107_serial C107_stolen C107_siphash64pg C107_panic C107_violated", "statements are atomic and interleaved (sequential consistency); safety of the 29 names also says they have no shared access at all")
claim("C105", P, "C105_time C105_chain C105_oa", "formatting by fmt and hrff is not modelled")
claim("C108", P, "C108_names C108_hashf C108_violated C108_info", "")
claim("C109", P, "C109_function C109_calls C109_counter C109_hashf C109_seedless C109_all_violated", "what is computed from the avalanche grid (C90) has no effect, and the search for its confidence bound ends (C110); only reports are modelled, not progress output")
claim("C111", P, "C111_table_unchanged C111_short_key C111_chain C111_open_addressing C111_full C111_trace_rebuilds", "the values printed, not their formatting; the lines of open addressing for a stateless hash function")
claim("C112", P, "C112_seed C112_bench C112_panics C112_keys", "timing is not modelled")
claim("C110", P, "C110_search C110_bounds", "math.Erf and math.Pow are parameters with erf(x)=1 for x>=6 and pow(1,n)=1")
claim("C113", P, "C113_frame C113_chain C113_open C113_trace C113_stored C113_violated", "the expected atomicity is refuted; the trace counter Tcnt is left out")
claim("C114", P, "C114_murmur32 C114_murmur64 C114_murmur128 C114_jenkins332c C114_jenkins364 C114_jenkins232 C114_siphash64 C114_siphash128 C114_copy_shares C114_copy_violated", "a call is one step; that struct copies are independent is refuted")
claim("C115", P, "ThreefishConc.C115_exclusive ThreefishConc.C115_finish ThreefishConc.C115_one_byte_user ThreefishConc.C115_shared_violated", "word accesses are sequentially consistent; goroutines have slices of their own; SetKey and SetTweak are not called meanwhile")
claim("C116", P, "C116_murmur32 C116_murmur128 C116_gomap_last C116_gomap_block C116_even C116_collisions C116_flood", "aeshash and the library hashes are outside")
claim("C117", P, "C117_one_to_one C117_no_duplicates C117_even C117_repeats C117_smhasher", "the program-level theorems are for the command lines of C99_total (at most 11 extra bits, acceptable files, sizes that can be allocated)")
claim("C118", P, "C118_lookup3 C118_lookup2 C118_hash264 C118_collisions C118_flood", "the Hash232 count is for keys below 2^32 bytes, the lengths its 32-bit length word can hold (C29)")
claim("C119", P, "C119_history C119_one_shot C119_bytes C119_bad_init", "")
claim("C120", P, "C120_avalanche C120_sanity C120_recorded", "")
claim("C121", P, "C121_history364 C121_history332 C121_history232 C121_reset C121_seeded C121_oneshot_violated", "C121_oneshot_violated refutes the expected form.")
claim("C122", P, "C122_builds C122_same C122_memory C122_compiled", "The macro files are generated by tools/gen_keccakbuild.py.")
claim("C123", P, "C123_short C123_widths C123_halves C123_collisions C123_flood", "windows of 32 bytes; keys of 192 bytes and more only for SpookyHashShort")
claim("C124", P, "C124_hash32 C124_hash32_long C124_hash64 C124_hash128Seed C124_hash128 C124_collisions C124_flood", "the windows named in the statement; other windows of long keys are not claimed")
claim("C125", P, "C125_second_preimage C125_collisions C125_flood", "")
claim("C126", P, "C126_all_names C126_flood C126_crapwow C126_prefix", "existence by counting for the names in general, by construction for CrapWow")
claim("C127", P, "C127_layout C127_locked C127_locked_all C127_unlocked C127_count C127_apart C127_lost_violated C127_crash_violated C127_oa_violated", "sequentially consistent interleaving of single memory accesses, slices with capacity in a heap; the hash function is pure and Trace is off")
claim("C128", P, "C128_any C128_same C128_history C128_bad_init C128_hash C128_standard C128_write_total_violated", "")
claim("C129", P, "Quality.C129_pairs Quality.C129_order Quality.C129_universal Quality.C129_mean Quality.C129_worst Quality.C129_floor Quality.C129_best", "Exact rationals; float64 rounding in C105.")
claim("C130", P, "Parking.C130_chain Parking.C130_oa Parking.C130_probes_violated", "")
claim("C131", P, "Parking.C131_flow Parking.C131_extremes Parking.C131_probes Parking.C131_walk Parking.C131_slots", "")
claim("C132", P, "Random.C132_heads Random.C132_cols Random.C132_dups Random.C132_false_alarm", "")
claim("C133", P, "Spread.C133_dups Spread.C133_quality Spread.C133_heads", "")
claim("C134", P, "Coins.C134_mean Coins.C134_coins Coins.C134_repeats Coins.C134_two_bytes_violated", "")
claim("C135", P, "Alarm.C135_run Alarm.C135_random", "")
claim("C136", P, "Longest.C136_longest", "")
claim("C137", P, "Certain.C137_twins Certain.C137_seedless Certain.C137_pass", "")
claim("C138", P, "NextInsert.C138_next NextInsert.C138_total", "")
claim("C139", P, "Murmur3Short.C139_tails32 Murmur3Short.C139_tails128 Murmur3Short.C139_four_bytes Murmur3Short.C139_small_keys", "")
claim("C140", P, "Printed.C140_order Printed.C140_one Printed.C140_oa", "float64 as in C105; formatting by fmt is not modelled")
claim("C141", P, "Bits.C141_same_homes Bits.C141_low_bits Bits.C141_mask_flip Bits.C141_prime_flip Bits.C141_j264l Bits.C141_dups_may_differ", "keys long enough for the trace output when Trace is on")
claim("C142", P, "DupCounts.C142_testL DupCounts.C142_pigeonhole DupCounts.C142_adler32", "for the command lines of C99_total; adler32 of Go's library is a parameter, assumed to be that of RFC 1950 in the third theorem")
claim("C143", P, "Counter.C143_spread Counter.C143_run Counter.C143_nullhash Counter.C143_main", "closes the case of the two names that the theorems of C99 about contents leave out; keys long enough for the trace output when Trace is on")
claim("C144", P, "StatBounds.C144_chain StatBounds.C144_oa StatRuns.C144_quality StatRuns.C144_main", "C144_chain and C144_oa: keys long enough for the trace output when Trace is on; C144_main: no such condition, the run is complete")
#NEXT

json.dump({"claims": [C[k] for k in sorted(C)]}, open("/verif/MANIFEST.json", "w"), indent=1)
print(len(C), "claims")
