{
 "claims": [
  {
   "property": "C01",
   "status": "proved",
   "theorems": [
    "Verif.Theta.C01_retained_exactly_hashes_below_theta"
   ],
   "note": "Any hash function, any history of updates, trims and resets."
  },
  {
   "property": "C02",
   "status": "proved",
   "theorems": [
    "Verif.Theta.C02_exact_until_capacity"
   ],
   "note": "Sampling probability 1; up to 15/16 of the full table distinct hashes; the hash values 0 and 2^63-1 are screened out by the code."
  },
  {
   "property": "C03",
   "status": "proved",
   "theorems": [
    "Verif.Theta.C03_search_total_and_load_bounded"
   ],
   "note": "All reachable states."
  },
  {
   "property": "C04",
   "status": "proved",
   "theorems": [
    "Verif.Theta.C04_theta_never_increases",
    "Verif.Theta.C04_trim_keeps_k_smallest"
   ],
   "note": "Monotone theta and trim semantics."
  },
  {
   "property": "C05",
   "status": "proved",
   "theorems": [
    "Verif.QuickSelect.C05_quickSelect_splits",
    "Verif.QuickSelect.C05_quickSelect_is_order_statistic"
   ],
   "note": "QuickSelect and QuickSelectFunc (same body, comparator abstract)."
  },
  {
   "property": "C06",
   "status": "proved",
   "theorems": [
    "Verif.Theta.C06_compact_preserves"
   ],
   "note": "Compact form of any reachable update sketch."
  },
  {
   "property": "C07",
   "status": "proved",
   "theorems": [
    "Verif.Theta.C07_union_result"
   ],
   "note": "Inputs are valid sketches through the Sketch interface; reachable update sketches, their compact forms and set-operation results are proved valid."
  },
  {
   "property": "C08",
   "status": "proved",
   "theorems": [
    "Verif.Theta.C08_union_order_and_layout_independent"
   ],
   "note": "Any permutation, layout and resize factor."
  },
  {
   "property": "C09",
   "status": "proved",
   "theorems": [
    "Verif.Theta.C09_intersection_result",
    "Verif.Theta.C09_empty_input",
    "Verif.Theta.C09_layout_independent",
    "Verif.Theta.C09_result_before_update",
    "Verif.Theta.C09_theta_depends_on_order"
   ],
   "note": "Inputs retain at most 15/16*2^27 hashes (the maximum of any sketch with lgK<=26)."
  },
  {
   "property": "C10",
   "status": "proved",
   "theorems": [
    "Verif.Theta.C10_a_not_b_result",
    "Verif.Theta.C10_algorithms_agree"
   ],
   "note": "An empty B is assumed to have maximal theta (true for every sketch built by updates; an empty union with sampling violates it)."
  },
  {
   "property": "C100",
   "status": "partial",
   "theorems": [
    "Verif.Hll.C100_streamed",
    "Verif.Hll.C100_wider",
    "Verif.Hll.C100_deviations",
    "Verif.Hll.C100_composite",
    "Verif.Hll.C100_composite_same",
    "Verif.Hll.C100_union_partial",
    "Verif.Hll.C100_lower_above"
   ],
   "note": "Proved for sketches of a stream. For results of unions that merged register-mode sketches the lower bound may exceed the estimate (C100_lower_above); the rest holds (C100_union_partial). Exact arithmetic."
  },
  {
   "property": "C101",
   "status": "proved",
   "theorems": [
    "Verif.Cpc.C101_total",
    "Verif.Cpc.C101_strict",
    "Verif.Cpc.C101_union"
   ],
   "note": "float64 as reals. The polynomials are shown to grow on [0, 2.875] by a certificate (slope bound on three intervals) checked by the kernel for all 23 rows."
  },
  {
   "property": "C102",
   "status": "proved",
   "theorems": [
    "Verif.Cpc.C102_streamed",
    "Verif.Cpc.C102_union",
    "Verif.Cpc.C102_unchecked"
   ],
   "note": "float64 as reals. C102_unchecked: arguments outside 1..3 are accepted (panic at lgK 14 with 4; negative upper bound at lgK 4 with 6)."
  },
  {
   "property": "C103",
   "status": "proved",
   "theorems": [
    "Verif.Cpc.C103_inverse",
    "Verif.Cpc.C103_union"
   ],
   "note": "Expected number of cells computed exactly as a mean over all hash sequences, enclosed by the Poisson occupancy function; that function is enclosed at 1165 points by fixed-point arithmetic (kernel), the polynomial of lgK 26 is compared at the points and in between by monotonicity, the other 22 polynomials with that one by positivity certificates, the exponential formula by doubling. float64 as reals."
  },
  {
   "property": "C104",
   "status": "proved",
   "theorems": [
    "Verif.Kll.C104_iterate",
    "Verif.Kll.C104_view"
   ],
   "note": "Also proved: a further call of Next after it has returned false panics (reads beyond the level array)."
  },
  {
   "property": "C105",
   "status": "partial",
   "theorems": [
    "Verif.Bloom.C105_accuracy_partial",
    "Verif.Bloom.C105_default",
    "Verif.Bloom.C105_bad_arguments",
    "Verif.Bloom.C105_target_missed",
    "Verif.Bloom.C105_size"
   ],
   "note": "Float64 as reals. The rate stays within 9/8 of the target (sharp limit of the formula); the target itself is missed for 1/2 and a million items (rate above 0.56), because the hash count is rounded up from the rounded size. Default filter: 95872 bits, 7 hash functions."
  },
  {
   "property": "C106",
   "status": "proved",
   "theorems": [
    "Verif.Tuple.C106_union",
    "Verif.Tuple.C106_union_sums",
    "Verif.Tuple.C106_intersection",
    "Verif.Tuple.C106_a_not_b"
   ],
   "note": "Inputs share no arrays (C55 shows what happens otherwise: the union writes into its inputs). An empty sketch with another number of values is ignored by a union, refused by an intersection."
  },
  {
   "property": "C107",
   "status": "proved",
   "theorems": [
    "Verif.View.C107_iterate",
    "Verif.View.C107_outside",
    "Verif.View.C107_default_criterion",
    "Verif.View.C107_zero_weight"
   ],
   "note": "Weights can be shown as zero (C107_zero_weight): a minimum or maximum that is not retained takes weight 1 from its neighbour."
  },
  {
   "property": "C108",
   "status": "proved",
   "theorems": [
    "Verif.Kll.C108_boundaries",
    "Verif.Kll.C108_repeat",
    "Verif.Kll.C108_rejected"
   ],
   "note": "The distance is measured in the sketch's own rank (the weight of the retained items); C48/C36 relate it to the stream. That the call changes later rank answers is the finding C36_partition_changes_rank."
  },
  {
   "property": "C109",
   "status": "partial",
   "theorems": [
    "Verif.Theta.C109_size_partial",
    "Verif.Theta.C109_promise_too_small",
    "Verif.Theta.C109_promise_broken"
   ],
   "note": "The full claim is false: the result is converted to uint8, so it is below 256, and proved too small for every sketch that retains 30 or more hashes, which every accepted size can (C109_promise_broken). Proved: the number computed before the conversion bounds every image of every reachable sketch."
  },
  {
   "property": "C11",
   "status": "proved",
   "theorems": [
    "Verif.BitPack.C11_block_pack_stream",
    "Verif.BitPack.C11_block_unpack_stream",
    "Verif.BitPack.C11_block_round_trip",
    "Verif.BitPack.C11_other_widths_error"
   ],
   "note": "All 126 straight-line functions transcribed; the finite symbolic check is lifted to all values and buffers."
  },
  {
   "property": "C110",
   "status": "proved",
   "theorems": [
    "Verif.VarOpt.C110_size"
   ],
   "note": "Sizes of the items by the serializer interface (SizeOf); both serializers of the library meet the law used."
  },
  {
   "property": "C111",
   "status": "partial",
   "theorems": [
    "Verif.Freq.Float.C111_plain_items_partial",
    "Verif.Freq.Float.C111_nan_never_found",
    "Verif.Freq.Float.C111_nan_uncounted",
    "Verif.Freq.Float.C111_zeros_split",
    "Verif.Freq.Float.get_eq",
    "Verif.Freq.Float.adjustOrPut_eq"
   ],
   "note": "Holds for streams without NaN and negative zero, any history of updates, merges and resets. False otherwise, with witnesses: a NaN is never found (any table with a free slot), m updates with a NaN leave its upper bound at 0 while taking m slots; 0.0 and -0.0 are == but hash apart. The external murmur3.SeedSum64 is taken to be Murmur3; growth and purge under Go's == are not modelled for NaN streams."
  },
  {
   "property": "C112",
   "status": "proved",
   "theorems": [
    "Verif.Tuple.C112_sum_mean",
    "Verif.Tuple.C112_sum_mean_pointers",
    "Verif.Tuple.C112_sum_spread",
    "Verif.Tuple.C112_filter_mean"
   ],
   "note": "Float64 arithmetic of the estimate is modelled by exact rationals; hashes are a uniformly random injective assignment."
  },
  {
   "property": "C113",
   "status": "proved",
   "theorems": [
    "Verif.Kll.C113_kll",
    "Verif.Kll.C113_kll_empty",
    "Verif.Req.C113_req",
    "Verif.Req.C113_req_empty"
   ],
   "note": "float64 ranks are exact rationals; items are finite (Ranks of REQ refuses NaN and infinities). The cached view of KLL is the one built from the sketch; GetPartitionBoundaries, which writes into it, is the finding of C36."
  },
  {
   "property": "C114",
   "status": "partial",
   "theorems": [
    "Verif.TDigest.C114_agree_partial",
    "Verif.TDigest.C114_loaded_injective",
    "Verif.TDigest.C114_nan_max",
    "Verif.TDigest.C114_unknown_type",
    "Verif.TDigest.C114_nan_mean",
    "Verif.TDigest.C114_nan_weight"
   ],
   "note": "False in four cases, each with a witness: maximum NaN, unknown legacy type, and NaN mean are accepted only from a stream, NaN weight (compact legacy format) only from a slice. Proved: equivalence for all other bytes."
  },
  {
   "property": "C115",
   "status": "proved",
   "theorems": [
    "Verif.Bloom.C115_square",
    "Verif.Bloom.C115_one_two",
    "Verif.Bloom.C115_items"
   ],
   "note": "Hash pairs uniform. The k-th power is not claimed: indices beyond the second are determined by the first two."
  },
  {
   "property": "C116",
   "status": "proved",
   "theorems": [
    "Verif.Reservoir.C116_spread",
    "Verif.Reservoir.C116_exact",
    "Verif.Reservoir.C116_bound"
   ],
   "note": "Exact second moment by induction over the stream: the scaled number of matching pairs of the sample grows on average by the pairs the new item makes. float64 results are rationals; draws are independent and uniform."
  },
  {
   "property": "C117",
   "status": "proved",
   "theorems": [
    "Verif.VarOpt.C117_heavy",
    "Verif.VarOpt.C117_threshold_unique",
    "Verif.VarOpt.C117_spread",
    "Verif.VarOpt.C117_tail",
    "Verif.VarOpt.C117_inclusion"
   ],
   "note": "Weights and thresholds are rationals, not float64; draws are independent and uniform."
  },
  {
   "property": "C118",
   "status": "proved",
   "theorems": [
    "Verif.Theta.C118_version1",
    "Verif.Theta.C118_version2_estimation",
    "Verif.Theta.C118_version2_exact",
    "Verif.Theta.C118_version2_empty",
    "Verif.Theta.C118_version2_seed",
    "Verif.Theta.C118_truncated"
   ],
   "note": "The layouts are stated independently of the decoder."
  },
  {
   "property": "C119",
   "status": "proved",
   "theorems": [
    "Verif.VarOpt.C119_sketch",
    "Verif.VarOpt.C119_union",
    "Verif.VarOpt.C119_tail"
   ],
   "note": "Draws are independent and uniform (rand.Float64 as the ideal uniform distribution), weights are rationals. Reservoir inputs use the exact spread of C116."
  },
  {
   "property": "C12",
   "status": "proved",
   "theorems": [
    "Verif.BitPack.C12_packBits_stream",
    "Verif.BitPack.C12_unpackBits_stream",
    "Verif.BitPack.C12_stream_round_trip",
    "Verif.BitPack.C12_same_format_as_block"
   ],
   "note": ""
  },
  {
   "property": "C120",
   "status": "proved",
   "theorems": [
    "Verif.Bloom.C120_reference",
    "Verif.Bloom.C120_same_bytes",
    "Verif.Bloom.C120_integers_differ",
    "Verif.Bloom.C120_floats"
   ],
   "note": "The byte hash is an external library (cespare/xxhash), taken to be the published xxHash64, which is written down in XxHash.lean; the integer hash of the repository is modelled operation by operation"
  },
  {
   "property": "C121",
   "status": "partial",
   "theorems": [
    "Verif.Reservoir.C121_is_sketch",
    "Verif.Reservoir.C121_union",
    "Verif.Reservoir.C121_unbiased",
    "Verif.Reservoir.C121_refused_partial",
    "Verif.Reservoir.C121_inconsistent_refuted",
    "Verif.Reservoir.C121_empty_blocks"
   ],
   "note": "Proved for consistent states (as many items as min(n,k), and not an empty slice without capacity). The last sentence is false in the code: counts below the number of items, also negative ones, are accepted (C121_inconsistent_refuted); an empty slice without capacity given first with k = maxK blocks the union (C121_empty_blocks). Writes of the caller to the shared slice are not modelled."
  },
  {
   "property": "C122",
   "status": "partial",
   "theorems": [
    "Verif.Kll.C122_range",
    "Verif.Kll.C122_decreasing",
    "Verif.Kll.C122_merge",
    "Verif.Kll.C122_update",
    "Verif.Kll.C122_round_trip",
    "Verif.Kll.C122_estimating",
    "Verif.Kll.C122_reset_partial",
    "Verif.Kll.C122_reset_refuted"
   ],
   "note": "Everything but the clause on Reset is proved for all programs (reading back under the conditions of C79: k up to 32767, m one of 2, 4, 6, 8; a sketch with fewer than two items announces the error of a new one). That clause is false: Reset keeps the smaller k taken over by a merge (C122_reset_refuted); it holds when all sketches of the program have the same k (C122_reset_partial). The formula is over the reals; that 99 percent of the errors stay below the announced one is an empirical statement and not claimed (C48 has the proved bounds)."
  },
  {
   "property": "C13",
   "status": "proved",
   "theorems": [
    "Verif.Theta.C13_uncompressed_round_trip",
    "Verif.Theta.C13_update_sketch_survives",
    "Verif.Theta.C13_empty_sampled_theta_lost"
   ],
   "note": "Includes the end-to-end theorem for every reachable update sketch; an empty sketch with theta<max (empty union with p<1) is a proved counterexample outside the hypothesis."
  },
  {
   "property": "C14",
   "status": "proved",
   "theorems": [
    "Verif.Theta.C14_compressed_round_trip",
    "Verif.Theta.C14_unsuitable_falls_back",
    "Verif.Theta.C13_update_sketch_survives"
   ],
   "note": ""
  },
  {
   "property": "C15",
   "status": "proved",
   "theorems": [
    "Verif.Freq.C15_bounds_bracket",
    "Verif.Freq.C15_update_total"
   ],
   "note": "Longs and Items sketch, every hash function, every tree of updates, merges and resets (total weight below 2^63; item sketch map size 2..2^15; merges with a sketch emptied by a purge excluded, see C18)."
  },
  {
   "property": "C16",
   "status": "proved",
   "theorems": [
    "Verif.Freq.C16_error_band",
    "Verif.Freq.C16_exact_when_no_error"
   ],
   "note": "Interval width equals the reported maximum error; reported stream weight equals the sum of the weights; exact while the error is 0."
  },
  {
   "property": "C17",
   "status": "proved",
   "theorems": [
    "Verif.Freq.C17_rows",
    "Verif.Freq.C17_no_false_negatives",
    "Verif.Freq.C17_no_false_positives"
   ],
   "note": "Rows sorted, without duplicates, with valid bounds; no false negatives; no false positives."
  },
  {
   "property": "C18",
   "status": "partial",
   "theorems": [
    "Verif.Freq.C18_merge_bounds_partial",
    "Verif.Freq.C18_merge_violated"
   ],
   "note": "The full claim is false (witness: merging a sketch whose purge removed every counter loses its stream). Proved for all other pairs."
  },
  {
   "property": "C19",
   "status": "proved",
   "theorems": [
    "Verif.Freq.C19_map_refines",
    "Verif.Freq.C19_map_total"
   ],
   "note": "Array level map with back-shifting deletion refines a finite map; no operation panics."
  },
  {
   "property": "C20",
   "status": "proved",
   "theorems": [
    "Verif.CountMin.C20_estimate_bounds"
   ],
   "note": "Hash family is a parameter; hypotheses: numHashes>=1, numBuckets*numHashes<2^30, total weight < 2^63."
  },
  {
   "property": "C21",
   "status": "proved",
   "theorems": [
    "Verif.CountMin.C21_merge_is_concatenation",
    "Verif.CountMin.C21_merge_rejects_incompatible"
   ],
   "note": "Holds with wrap-around arithmetic, no overflow hypothesis."
  },
  {
   "property": "C22",
   "status": "proved",
   "theorems": [
    "Verif.CountMin.C22_serialize_roundtrip"
   ],
   "note": "Round trip restores every field."
  },
  {
   "property": "C23",
   "status": "proved",
   "theorems": [
    "Verif.Bloom.C23_no_false_negatives",
    "Verif.Bloom.C23_union_keeps_members"
   ],
   "note": "Every history of updates/unions, every hash."
  },
  {
   "property": "C24",
   "status": "proved",
   "theorems": [
    "Verif.Bloom.C24_bitsUsed_exact"
   ],
   "note": ""
  },
  {
   "property": "C25",
   "status": "proved",
   "theorems": [
    "Verif.Bloom.C25_queryAndUpdate_is_query_then_update"
   ],
   "note": ""
  },
  {
   "property": "C26",
   "status": "proved",
   "theorems": [
    "Verif.Bloom.C26_set_operations_bitwise",
    "Verif.Bloom.C26_incompatible_rejected"
   ],
   "note": ""
  },
  {
   "property": "C27",
   "status": "proved",
   "theorems": [
    "Verif.Bloom.C27_serialize_roundtrip",
    "Verif.Bloom.C27_accepted_images"
   ],
   "note": ""
  },
  {
   "property": "C28",
   "status": "proved",
   "theorems": [
    "Verif.Hll.C28_registers",
    "Verif.Hll.C28_never_fails",
    "Verif.Hll.C28_hll4_can_fail"
   ],
   "note": "List, set and all three register arrays, incl. aux hash map, shifting of the 4-bit offset and promotion. Hashes are parameters; HIP accumulator abstract; KxQ sums as integers scaled by 2^63 (exact in float64 too). Exact failure condition of HLL4 part of the theorem."
  },
  {
   "property": "C29",
   "status": "proved",
   "theorems": [
    "Verif.Hll.C29_types_agree",
    "Verif.Hll.C29_copy"
   ],
   "note": "Same abstract state for all types incl. HIP; conversions keep all registers."
  },
  {
   "property": "C30",
   "status": "partial",
   "theorems": [
    "Verif.Hll.C30_union_partial",
    "Verif.Hll.C30_order_partial",
    "Verif.Hll.C30_larger_rejected",
    "Verif.Hll.C30_smaller_merges_wrong_slots",
    "Verif.Hll.C30_smaller_violated",
    "Verif.Hll.C30_estimate_stale"
   ],
   "note": "Full result incl. GetResult of every type for register-mode inputs with the union's lgK (coupon-mode inputs of any lgK). For smaller lgK the code is wrong (proved), larger is rejected."
  },
  {
   "property": "C31",
   "status": "proved",
   "theorems": [
    "Verif.Hll.C31_nibble",
    "Verif.Hll.C31_six_bits",
    "Verif.Hll.C31_six_bits_in_range"
   ],
   "note": ""
  },
  {
   "property": "C32",
   "status": "proved",
   "theorems": [
    "Verif.Kll.C32_weight",
    "Verif.Kll.C32_m_above_k_panics",
    "Verif.Kll.C32_m_below_two_panics",
    "Verif.Kll.C32_k_range"
   ],
   "note": "every program, every coin; parameters k in 8..65535, 2 <= m <= k, streams below 2^60; findings for m out of range proved"
  },
  {
   "property": "C33",
   "status": "proved",
   "theorems": [
    "Verif.Kll.C33_min_max",
    "Verif.Kll.C33_retained"
   ],
   "note": "any comparison that is a strict weak order"
  },
  {
   "property": "C34",
   "status": "proved",
   "theorems": [
    "Verif.Kll.C34_rank_error",
    "Verif.Kll.C34_exact",
    "Verif.Kll.C34_small"
   ],
   "note": "rank below and at-or-below every item; the ghost field log lists the compactions"
  },
  {
   "property": "C35",
   "status": "proved",
   "theorems": [
    "Verif.Inequality.C35_findWithInequality_correct",
    "Verif.Inequality.C35_findWithInequality_sorted"
   ],
   "note": ""
  },
  {
   "property": "C36",
   "status": "proved",
   "theorems": [
    "Verif.Kll.C36_rank",
    "Verif.Kll.C36_rank_monotone",
    "Verif.Kll.C36_quantile",
    "Verif.Kll.C36_quantile_of_rank",
    "Verif.Kll.C36_cdf_pmf",
    "Verif.Kll.C36_split_points_rejected",
    "Verif.Kll.C36_rejected",
    "Verif.Kll.C36_rank_error",
    "Verif.Kll.C36_cache",
    "Verif.Kll.C36_queries_readonly",
    "Verif.View.C36_numeric_view",
    "Verif.View.C36_natural_rank",
    "Verif.Kll.C36_partition_changes_rank",
    "Verif.Req.C36_req_queries"
   ],
   "note": "KLL queries over every run of every valid program, with the cached view; numeric view (used by REQ) for every weighted item list. Ranks over the rationals; comparison is the strict order of a linear order."
  },
  {
   "property": "C37",
   "status": "proved",
   "theorems": [
    "Verif.Req.C37_weight",
    "Verif.Req.C37_size",
    "Verif.Req.C37_merge_refused"
   ],
   "note": "every program of creations, updates, merges and resets over several sketches, every coin sequence; k even, 4..1024, total n below 2^47; no self-merge"
  },
  {
   "property": "C38",
   "status": "proved",
   "theorems": [
    "Verif.Req.C38_extremes",
    "Verif.Req.C38_phantom_zero"
   ],
   "note": "extremes under Clean (no merge into a sketch that has not been updated yet); the violation for merging into a fresh sketch is proved for every such stream on one side of zero"
  },
  {
   "property": "C39",
   "status": "proved",
   "theorems": [
    "Verif.Reservoir.C39_sample",
    "Verif.Reservoir.C39_uniform",
    "Verif.Reservoir.C39_inclusion",
    "Verif.Reservoir.C39_unbiased",
    "Verif.Reservoir.C39_total_weight",
    "Verif.Reservoir.C39_reset",
    "Verif.Reservoir.C39_small_k"
   ],
   "note": "expected values are over ideal uniform draws; capacity chosen by slices.Grow is a parameter; bounds of EstimateSubsetSum (normal quantiles) not modelled"
  },
  {
   "property": "C40",
   "status": "proved",
   "theorems": [
    "Verif.VarOpt.C40_sample",
    "Verif.VarOpt.C40_threshold",
    "Verif.VarOpt.C40_estimate",
    "Verif.VarOpt.C40_unbiased",
    "Verif.VarOpt.C40_bad_k",
    "Verif.VarOpt.C40_bad_weight",
    "Verif.VarOpt.C40_reset",
    "Verif.VarOpt.C40_exact_total_is_wrong"
   ],
   "note": "All runs and expected values over exact rational weights; floating-point rounding and the confidence bounds are not modelled."
  },
  {
   "property": "C41",
   "status": "proved",
   "theorems": [
    "Verif.Bloom.C41_numHashes_65535_diverges",
    "Verif.Bloom.C41_numHashes_65535_accepted"
   ],
   "note": "The property as stated is the defect: 65535 hashes are accepted and the update loop has no terminating run."
  },
  {
   "property": "C42",
   "status": "proved",
   "theorems": [
    "Verif.CountMin.C42_lower_bound_unsound",
    "Verif.CountMin.C42_zero_hashes_estimate",
    "Verif.CountMin.C42_size_check_overflow"
   ],
   "note": "The statement describes defects; each is a theorem."
  },
  {
   "property": "C43",
   "status": "proved",
   "theorems": [
    "Verif.Theta.C43_wrapped_equals_decoded"
   ],
   "note": ""
  },
  {
   "property": "C44",
   "status": "partial",
   "theorems": [
    "Verif.Theta.C44_decode_no_panic_partial",
    "Verif.Theta.C44_decode_panics_on_short_input",
    "Verif.Theta.C44_decode_panics_on_zero_width"
   ],
   "note": "The full claim is false: two byte strings that make Decode panic are exhibited; proved for all inputs of at least 24 bytes that are not version 4 with zero-bit entries."
  },
  {
   "property": "C45",
   "status": "proved",
   "theorems": [
    "Verif.Freq.C45_maximum_error",
    "Verif.Freq.C45_apriori_error"
   ],
   "note": "Deterministic error guarantee, for map sizes 8..1024 in the form of the documented a-priori error."
  },
  {
   "property": "C46",
   "status": "proved",
   "theorems": [
    "Verif.Reservoir.C46_union",
    "Verif.Reservoir.C46_union_unbiased",
    "Verif.Reservoir.C46_small_maxK_panics",
    "Verif.Reservoir.C46_reset_fresh_panics",
    "Verif.Reservoir.C46_more_than_min_k"
   ],
   "note": "float weights are rationals; UpdateFromRaw and serialization not modelled"
  },
  {
   "property": "C47",
   "status": "proved",
   "theorems": [
    "Verif.VarOpt.C47_union",
    "Verif.VarOpt.C47_union_unbiased",
    "Verif.VarOpt.C47_union_represents",
    "Verif.VarOpt.C47_result_refuses_updates"
   ],
   "note": "All runs and expected values over exact rational weights; includes reservoir inputs and nested unions. The witness shows the unusable result."
  },
  {
   "property": "C48",
   "status": "proved",
   "theorems": [
    "Verif.Kll.C48_unbiased",
    "Verif.Kll.C48_mean_square",
    "Verif.Kll.C48_tail",
    "Verif.Kll.C48_k_overflow"
   ],
   "note": "expectation over independent fair coins; sketch must not have absorbed the same sketch twice (live)"
  },
  {
   "property": "C49",
   "status": "proved",
   "theorems": [
    "Verif.Req.C49_exact_ranks",
    "Verif.Req.C49_extreme_retained"
   ],
   "note": "exact up to 3k items from the accurate end, smallest k involved; the extreme item of the accurate end is always retained"
  },
  {
   "property": "C50",
   "status": "proved",
   "theorems": [
    "Verif.Req.C50_rank_bounds",
    "Verif.Req.C50_exact_interval",
    "Verif.Req.C50_quantile_bounds",
    "Verif.Req.C50_quantile_bound_errors"
   ],
   "note": "rank and quantile bounds bracket the estimate; the cases in which the quantile bounds are errors are proved too; at the accurate end the interval is the point of the true rank (for programs that do not merge into a fresh sketch, see C38)"
  },
  {
   "property": "C51",
   "status": "proved",
   "theorems": [
    "Verif.Req.C51_unbiased",
    "Verif.Req.C51_merge_bias"
   ],
   "note": "Coupling of each run with the one in which one coin is reversed.  C51_merge_bias is the counterexample with Merge."
  },
  {
   "property": "C52",
   "status": "proved",
   "theorems": [
    "Verif.Req.C52_relative_error",
    "Verif.Req.C52_tail"
   ],
   "note": "Constant 12/(k^2-12) is larger than the empirical one in the code; merges excluded since they bias the estimate (C51)."
  },
  {
   "property": "C53",
   "status": "proved",
   "theorems": [
    "Verif.Tuple.C53_same_hashes_as_theta",
    "Verif.Tuple.C53_summaries_pointers",
    "Verif.Tuple.C53_summaries_values"
   ],
   "note": "Generic over the kind of summary (laws in TupleLaws.lean), instantiated for summaries by value and behind pointers."
  },
  {
   "property": "C54",
   "status": "proved",
   "theorems": [
    "Verif.Tuple.C54_compact_is_independent_snapshot",
    "Verif.Tuple.C54_filter",
    "Verif.Tuple.C54_from_theta_shares_one_summary"
   ],
   "note": "NewCompactSketch and Filter; the sharing by NewCompactSketchFromThetaSketch is proved as a witness."
  },
  {
   "property": "C55",
   "status": "proved",
   "theorems": [
    "Verif.Tuple.C55_union_values",
    "Verif.Tuple.C55_union_pointers",
    "Verif.Tuple.C55_union_same_input_thrice",
    "Verif.Tuple.C55_union_changes_its_inputs",
    "Verif.Tuple.C55_union_result_changes_later",
    "Verif.Tuple.C55_union_reset_clears_inputs"
   ],
   "note": "Hypothesis for pointers: the summaries handed over are distinct live objects; what happens otherwise is shown by four witnesses."
  },
  {
   "property": "C56",
   "status": "proved",
   "theorems": [
    "Verif.Tuple.C56_intersection_values",
    "Verif.Tuple.C56_intersection_pointers",
    "Verif.Tuple.C56_intersection_changes_first_input"
   ],
   "note": "Inputs of at most 15*2^27/16 entries, as for C09."
  },
  {
   "property": "C57",
   "status": "proved",
   "theorems": [
    "Verif.Tuple.C57_a_not_b_values",
    "Verif.Tuple.C57_a_not_b_pointers"
   ],
   "note": "If B is empty its theta must be maximal, as for C10."
  },
  {
   "property": "C58",
   "status": "proved",
   "theorems": [
    "Verif.Tuple.C58_round_trip",
    "Verif.Tuple.C58_history_round_trip",
    "Verif.Tuple.C58_damaged_input",
    "Verif.Tuple.C58_empty_union_loses_theta"
   ],
   "note": "The result of an empty sampling union is outside the round trip (theta not written): witness."
  },
  {
   "property": "C59",
   "status": "proved",
   "theorems": [
    "Verif.Tuple.C59_array_of_numbers_round_trip",
    "Verif.Tuple.C59_damaged_input"
   ],
   "note": ""
  },
  {
   "property": "C60",
   "status": "proved",
   "theorems": [
    "Verif.Tuple.C60_strings_round_trip",
    "Verif.Tuple.C60_sketch_round_trip",
    "Verif.Tuple.C60_size_field",
    "Verif.Tuple.C60_keys_distinct",
    "Verif.Tuple.C60_keys_collide"
   ],
   "note": ""
  },
  {
   "property": "C61",
   "status": "proved",
   "theorems": [
    "Verif.Tuple.C61_sums",
    "Verif.Tuple.C61_short_slice_panics"
   ],
   "note": ""
  },
  {
   "property": "C62",
   "status": "proved",
   "theorems": [
    "Verif.Cpc.C62_matrix",
    "Verif.Cpc.C62_order",
    "Verif.Cpc.C62_duplicate",
    "Verif.Cpc.C62_reference",
    "Verif.Cpc.C62_lgK"
   ],
   "note": "for all accepted streams; hash function left abstract"
  },
  {
   "property": "C63",
   "status": "proved",
   "theorems": [
    "Verif.Cpc.C63_accepts",
    "Verif.Cpc.C63_step_iff",
    "Verif.Cpc.C63_refused"
   ],
   "note": "sufficient condition, exact condition, refused stream"
  },
  {
   "property": "C64",
   "status": "proved",
   "theorems": [
    "Verif.Cpc.C64_mean",
    "Verif.Cpc.C64_step",
    "Verif.Cpc.C64_lower"
   ],
   "note": "exact rational arithmetic; n up to about ten times the number of rows"
  },
  {
   "property": "C65",
   "status": "proved",
   "theorems": [
    "Verif.Cpc.C65_union",
    "Verif.Cpc.C65_result",
    "Verif.Cpc.C65_accepts",
    "Verif.Cpc.C65_order",
    "Verif.Cpc.C65_seed_empty"
   ],
   "note": "all flavors and reductions"
  },
  {
   "property": "C66",
   "status": "proved",
   "theorems": [
    "Verif.Cpc.C66_copy",
    "Verif.Cpc.C66_reset",
    "Verif.Cpc.C66_flavor"
   ],
   "note": ""
  },
  {
   "property": "C67",
   "status": "proved",
   "theorems": [
    "Verif.Cpc.C67_round_trip",
    "Verif.Cpc.C67_continue",
    "Verif.Cpc.C67_union"
   ],
   "note": "Floats enter as abstract Float64bits/Float64frombits; equality of estimates after continuation assumes that the two registers survive them."
  },
  {
   "property": "C68",
   "status": "partial",
   "theorems": [
    "Verif.Cpc.C68_partial",
    "Verif.Cpc.C68_refused"
   ],
   "note": "The full claim is false in the code: when it becomes too costly, introspectiveInsertionSort sorts only a tail of the list (C68_refused gives a stream of 24 items). Proved: never a panic, and success with at most 17 surprising values."
  },
  {
   "property": "C69",
   "status": "partial",
   "theorems": [
    "Verif.Cpc.C69_header_partial",
    "Verif.Cpc.C69_seed_unchecked",
    "Verif.Cpc.C69_truncated"
   ],
   "note": "The full claim is false in the code: the seed hash is not checked and truncated bytes panic (both proved). Proved: a bad header (length, version, family, lgK, first column, preamble size, flag) gives an error."
  },
  {
   "property": "C70",
   "status": "partial",
   "theorems": [
    "Verif.Cpc.C70_partial",
    "Verif.Cpc.C70_union_partial",
    "Verif.Cpc.C70_empty"
   ],
   "note": "Proved for sketches that are not empty; false for the empty sketch (C70_empty)."
  },
  {
   "property": "C71",
   "status": "proved",
   "theorems": [
    "Verif.TDigest.C71_summary",
    "Verif.TDigest.C71_update",
    "Verif.TDigest.C71_merge",
    "Verif.TDigest.C71_queries"
   ],
   "note": "over an arbitrary ordered field"
  },
  {
   "property": "C72",
   "status": "proved",
   "theorems": [
    "Verif.TDigest.C72_rank",
    "Verif.TDigest.C72_rank_ends",
    "Verif.TDigest.C72_cdf_pmf",
    "Verif.TDigest.C72_split_points"
   ],
   "note": "over an arbitrary ordered field"
  },
  {
   "property": "C73",
   "status": "proved",
   "theorems": [
    "Verif.TDigest.C73_rank",
    "Verif.TDigest.C73_quantile"
   ],
   "note": "the logarithm is only assumed to be nonpositive up to 1"
  },
  {
   "property": "C74",
   "status": "partial",
   "theorems": [
    "Verif.TDigest.C74_quantile_range_partial",
    "Verif.TDigest.C74_refused",
    "Verif.TDigest.C74_quantile_not_monotone",
    "Verif.TDigest.C74_nan_rank"
   ],
   "note": "range, extremes and refusals proved; monotonicity is false in the code (interpolation weights swapped), the negation is proved with a witness; NaN ranks are answered with NaN"
  },
  {
   "property": "C75",
   "status": "proved",
   "theorems": [
    "Verif.TDigest.C75_size"
   ],
   "note": "over the reals with the real logarithm"
  },
  {
   "property": "C76",
   "status": "proved",
   "theorems": [
    "Verif.TDigest.C76_round_trip"
   ],
   "note": "for digests whose numbers survive the conversion to 64 bits and back"
  },
  {
   "property": "C77",
   "status": "partial",
   "theorems": [
    "Verif.TDigest.C77_no_panic_partial",
    "Verif.TDigest.C77_panics",
    "Verif.TDigest.C77_stream"
   ],
   "note": "Slice decoder: proved except for inputs of 28 or 29 bytes in the legacy compact format, on which the code does panic (proved). Stream decoder: proved in full, all formats."
  },
  {
   "property": "C78",
   "status": "proved",
   "theorems": [
    "Verif.Items.C78_strings",
    "Verif.Items.C78_numbers",
    "Verif.Items.C78_strings_safe",
    "Verif.Items.C78_one_string",
    "Verif.Items.C78_numbers_short"
   ],
   "note": "The list form, which is what the claim is about. The one-item form of strings is wrong for the empty string (C78_one_string); numbers panic on short memory (C78_numbers_short)."
  },
  {
   "property": "C79",
   "status": "partial",
   "theorems": [
    "Verif.Kll.C79_round_trip_partial",
    "Verif.Kll.C79_numbers_partial",
    "Verif.Kll.C79_strings_partial",
    "Verif.Kll.C79_other_m",
    "Verif.Kll.C79_large_k",
    "Verif.Kll.C79_empty_string",
    "Verif.Kll.C79_decoder_panics"
   ],
   "note": "Proved for k <= 32767, m in {2,4,6,8}, fewer than 2^58 items and, for strings, extremes that are not empty (or a single item). The full claim is false: C79_large_k, C79_other_m, C79_empty_string. minK is not written for sketches with fewer than two items (see Same.minK)."
  },
  {
   "property": "C80",
   "status": "partial",
   "theorems": [
    "Verif.Freq.C80_round_trip_partial",
    "Verif.Freq.C80_bounds_bracket",
    "Verif.Freq.C80_maximum_error",
    "Verif.Freq.C80_empty",
    "Verif.Freq.C80_purged_lost",
    "Verif.Freq.C80_items_empty_shrinks",
    "Verif.Freq.C80_reader_panics"
   ],
   "note": "Proved for every sketch that holds a counter (failure only by the drift limit of the long map above 1024 slots) and for whole lives with write/read cycles. The full claim is false: a sketch emptied by a purge is written as empty and loses its stream (C80_purged_lost); an empty item sketch comes back with maximum map size 8 (C80_items_empty_shrinks); the reader panics on a short preamble (C80_reader_panics)."
  },
  {
   "property": "C81",
   "status": "proved",
   "theorems": [
    "Verif.Reservoir.C81_sketch",
    "Verif.Reservoir.C81_union",
    "Verif.Reservoir.C81_union_any",
    "Verif.Reservoir.C81_legacy_size",
    "Verif.Reservoir.C81_bad_resize",
    "Verif.Reservoir.C81_reader_panics",
    "Verif.Reservoir.C81_reader_negative",
    "Verif.Reservoir.C81_large_k"
   ],
   "note": "for k < 2^32 and unions that were not reset; C81_union_any says what holds after Reset"
  },
  {
   "property": "C82",
   "status": "partial",
   "theorems": [
    "Verif.VarOpt.C82_sketch_partial",
    "Verif.VarOpt.C82_decoded_refuses_updates",
    "Verif.VarOpt.C82_original_accepts_updates",
    "Verif.VarOpt.C82_union_partial",
    "Verif.VarOpt.C82_union_decoded_refuses",
    "Verif.VarOpt.C82_result_not_encodable",
    "Verif.VarOpt.C82_result_not_encodable_witness"
   ],
   "note": "Round trip of sketches and unions proved, incl. equal result distributions (means of subset sums). False in the code and refuted: a sketch in sampling mode refuses every update after reading, a union in sampling mode every non-empty sketch, and results of unions in sampling mode with marked samples cannot be written."
  },
  {
   "property": "C83",
   "status": "proved",
   "theorems": [
    "Verif.Hll.C83_round_trip",
    "Verif.Hll.C83_sizes",
    "Verif.Hll.C83_union"
   ],
   "note": "float64 conversion is a parameter that keeps float64 values (mantissa below 2^53); the union theorem assumes that the rebuilt accumulators are float64 values"
  },
  {
   "property": "C84",
   "status": "partial",
   "theorems": [
    "Verif.Hll.C84_sole_user_partial",
    "Verif.Hll.C84_slice_retained"
   ],
   "note": "false in the code: register arrays are views of the caller's slice (C84_slice_retained); proved: a sole user of the slice sees the right sketch"
  },
  {
   "property": "C85",
   "status": "partial",
   "theorems": [
    "Verif.Hll.C85_header_partial",
    "Verif.Hll.C85_panics",
    "Verif.Hll.C85_union_panics"
   ],
   "note": "false in the code: inconsistent images panic (witnesses C85_panics, C85_union_panics); proved: every slice without a consistent header gives an error"
  },
  {
   "property": "C86",
   "status": "proved",
   "theorems": [
    "Verif.Theta.C86_estimate_mean",
    "Verif.Theta.C86_estimate_spread",
    "Verif.Theta.C86_estimate_exact"
   ],
   "note": "Stopping-time argument: whether theta falls below t depends only on hashes from t on. Distinct non-zero hashes, uniform over all assignments; exact rationals instead of float64."
  },
  {
   "property": "C87",
   "status": "proved",
   "theorems": [
    "Verif.Theta.C87_expression_mean",
    "Verif.Theta.C87_union_spread",
    "Verif.Theta.C87_union_exact"
   ],
   "note": "Induction over expressions: the sampling property is kept by compact, union, intersection and difference. Unions without sampling probability."
  },
  {
   "property": "C88",
   "status": "proved",
   "theorems": [
    "Verif.CountMin.C88_error_probability",
    "Verif.CountMin.C88_relative_error",
    "Verif.CountMin.C88_suggested_sizes"
   ],
   "note": "Counting over all hash words; distinct row seeds assumed; reals instead of float64; confidence at most 1-e^-127 (the cap of 127 rows)."
  },
  {
   "property": "C89",
   "status": "proved",
   "theorems": [
    "Verif.Murmur3.C89_bytes_reference",
    "Verif.Murmur3.C89_int64_reference",
    "Verif.Murmur3.C89_chars_reference",
    "Verif.Murmur3.C89_bytes_one_group",
    "Verif.Murmur3.C89_chars_one_group",
    "Verif.Murmur3.C89_int64_one_group",
    "Verif.Murmur3.C89_short_inputs"
   ],
   "note": "Refinement to a separately written reference; collision freedom within a group and for short inputs"
  },
  {
   "property": "C90",
   "status": "partial",
   "theorems": [
    "Verif.Murmur3.C90_int32_odd_ignored",
    "Verif.Murmur3.C90_int32_slices_refuted",
    "Verif.Murmur3.C90_int32_slices_partial",
    "Verif.Murmur3.C90_int32_single"
   ],
   "note": "The code ignores odd positions (refuted with every seed); even positions and single integers are told apart"
  },
  {
   "property": "C91",
   "status": "partial",
   "theorems": [
    "Verif.Items.C91_float_bits",
    "Verif.Items.C91_theta_floats",
    "Verif.Items.C91_float32",
    "Verif.Items.C91_bloom_arrays_refuted",
    "Verif.Items.C91_bloom_arrays_partial"
   ],
   "note": "Proved for single values everywhere; Bloom filter arrays hash raw bits (refuted for zeros and NaNs, partial otherwise)"
  },
  {
   "property": "C92",
   "status": "partial",
   "theorems": [
    "Verif.Items.C92_integers_partial",
    "Verif.Items.C92_integers_refuted"
   ],
   "note": "True within the 64-bit group and within the 32-bit group of methods, false across them and for strings against bytes"
  },
  {
   "property": "C93",
   "status": "proved",
   "theorems": [
    "Verif.Binomial.C93_defined",
    "Verif.Binomial.C93_rejects",
    "Verif.Binomial.C93_order",
    "Verif.Binomial.C93_widens",
    "Verif.Binomial.C93_normal",
    "Verif.Binomial.C93_sketch"
   ],
   "note": "Over exact reals; float64 rounding not modelled. Loops carry fuel, C93_defined shows enough exists."
  },
  {
   "property": "C94",
   "status": "proved",
   "theorems": [
    "Verif.Binomial.C94_lower_exact",
    "Verif.Binomial.C94_upper_exact",
    "Verif.Binomial.C94_lower_coverage",
    "Verif.Binomial.C94_upper_coverage"
   ],
   "note": "Over exact reals. Claimed only where the code sums the binomial distribution or uses its closed forms; elsewhere it is a normal approximation without guarantee."
  },
  {
   "property": "C95",
   "status": "proved",
   "theorems": [
    "Verif.SubsetBounds.C95_proportion_bracket",
    "Verif.SubsetBounds.C95_proportion_rejects",
    "Verif.SubsetBounds.C95_proportion_no_trials",
    "Verif.SubsetBounds.C95_proportion_complement",
    "Verif.SubsetBounds.C95_proportion_exact_lower",
    "Verif.SubsetBounds.C95_proportion_exact_upper",
    "Verif.SubsetBounds.C95_reservoir",
    "Verif.SubsetBounds.C95_reservoir_complement",
    "Verif.SubsetBounds.C95_reservoir_union",
    "Verif.SubsetBounds.C95_reservoir_level",
    "Verif.SubsetBounds.C95_varopt",
    "Verif.SubsetBounds.C95_varopt_sample",
    "Verif.SubsetBounds.C95_varopt_complement",
    "Verif.SubsetBounds.C95_varopt_level"
   ],
   "note": "Exact reals instead of float64. Coverage probability of the approximation is not claimed."
  },
  {
   "property": "C96",
   "status": "proved",
   "theorems": [
    "Verif.Theta.C96_equal_trivial",
    "Verif.Theta.C96_exactly_equal",
    "Verif.Theta.C96_trivial",
    "Verif.Theta.C96_jaccard",
    "Verif.Theta.C96_symmetric",
    "Verif.Theta.C96_seed",
    "Verif.Theta.C96_similar",
    "Verif.Theta.C96_exact_streams",
    "Verif.Theta.C96_too_large",
    "Verif.Theta.C96_no_evidence"
   ],
   "note": "Jaccard, IsExactlyEqual, IsSimilar, IsDissimilar over exact reals.  C96_too_large and C96_no_evidence prove two findings outside the claim: above 2^26 hashes together Jaccard of disjoint exact sketches fails, and two sampled sketches without any hash are reported as equal with certainty."
  },
  {
   "property": "C97",
   "status": "proved",
   "theorems": [
    "Verif.Tuple.C97_jaccard",
    "Verif.Tuple.C97_trivial",
    "Verif.Tuple.C97_symmetric",
    "Verif.Tuple.C97_exactly_equal",
    "Verif.Tuple.C97_similar",
    "Verif.Tuple.C97_seed",
    "Verif.Tuple.C97_equality_changes_input",
    "Verif.Tuple.C97_jaccard_changes_input"
   ],
   "note": "Results only.  Negative part: C97_equality_changes_input and C97_jaccard_changes_input prove that IsExactlyEqual and Jaccard change the summaries of the first sketch when summaries are pointers."
  },
  {
   "property": "C98",
   "status": "partial",
   "theorems": [
    "Verif.Freq.C98_text_round_trip_partial",
    "Verif.Freq.C98_text_same_answers",
    "Verif.Freq.C98_text_bounds",
    "Verif.Freq.C98_text_reader_total",
    "Verif.Freq.C98_text_reader_answers",
    "Verif.Freq.C98_negative_unreadable",
    "Verif.Freq.C98_full_map_accepted"
   ],
   "note": "Full claim false: a sketch counting a negative item writes a text that the reader rejects (ParseUint), C98_negative_unreadable; round trip proved for streams of non-negative items with a maximum map size up to 2^31, up to the drift-limit error above 1024 slots. Texts announcing 1 slot give a full map on which queries never end (C98_full_map_accepted). Of the two parser errors the model reports one."
  },
  {
   "property": "C99",
   "status": "proved",
   "theorems": [
    "Verif.Hll.C99_coupon_mode",
    "Verif.Hll.C99_step",
    "Verif.Hll.C99_mean",
    "Verif.Hll.C99_slots",
    "Verif.Hll.C99_types"
   ],
   "note": "Estimates as exact rationals. C99_step and C99_mean for 6- and 8-bit registers; for 4-bit registers the estimate of every stream is the same (C99_types)."
  }
 ]
}