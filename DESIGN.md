# Formal model of apache/datasketches-go in Lean 4

The properties are in `properties.jsonl` (ids C01...).  The model and proofs are
the Lake project `lean/`.  `MANIFEST.json` maps every property to the theorems
that establish it.  `seeded/LOG.jsonl` records mutation attempts on the model.

## Trusted base

* The Lean 4.33 kernel.  Theorems depend at most on the axioms `propext`,
  `Classical.choice` and `Quot.sound`.  No axioms of our own, no `sorry`, no
  `native_decide`/`bv_decide`.
* The faithfulness of the hand translation Go -> Lean.  Every definition of the
  model cites the Go file and lines.  No Go code was executed.
* Outside C89-C92, C111 and C120 hash functions (MurmurHash3, xxHash64) are *parameters*: every theorem holds
  for every function from items to hash values.
* A function that draws random numbers is a tree with one branch per outcome
  (`Verif.Rand`).  `Rand.All` says that every run returns normally with a given
  property; `Rand.HasE` is the expected value for independent uniform draws (the
  `Float64` generator is the ideal uniform distribution on [0,1)); it is proved
  to be unique.
* Go integers are modelled by `Nat`/`Int` with the wrap-around made explicit
  where it can matter; where a definition uses unbounded numbers the comment
  says so and the range argument is given.
* Floating point is never modelled bit for bit.  Where the code computes with
  float64 weights (VarOpt) the model uses exact rationals, and the t-digest works
  over an arbitrary ordered field (no rounding; NaN and infinities are explicit).  The estimates
  and bounds (theta, HLL, CPC, Bloom builder, binomial bounds) are taken over the rationals or the
  reals, with `math.Log`, `math.Sqrt`, `math.Pow` as the real functions and the constants and tables of
  the code as exact decimals; nothing is claimed about rounding errors.

## Conventions

* A Go slice is a `List`; an index out of range is an explicit `none`/error
  outcome, or the definition is total and an in-bounds theorem accompanies it.
* A Go `for` loop without static bound is modelled with fuel and a theorem shows
  that the fuel given is always enough.
* `error` results and panics are values.
* Files `*Model.lean` hold the translation of the code, `*Lemmas.lean` the
  auxiliary facts, `*Props.lean` the property theorems with their spec
  and non-vacuity examples.

## Plan per property

| id | what is modelled | how it is proved |
|----|------------------|------------------|
| C01-C04 | `theta/hashtable.go`, `theta/update_sketch.go` array level | invariant over operation histories, refinement to finite set spec |
| C05 | `internal/quick_select.go` loop level | loop invariants of partition, induction on the range |
| C06 | `theta/compact_sketch.go` | direct |
| C07, C08 | `theta/union.go` over the table model | invariant over sequence of inputs; order independence from set characterisation |
| C09, C10 | `theta/intersection.go`, `theta/a_not_b.go` | refinement to set spec |
| C11 | the 126 unrolled functions of `theta/bit_packing.go` as data (translated by script) | kernel-checked finite table + lifting lemma to all values |
| C12 | `packBits`/`unpackBits` | bit-level induction |
| C13, C14 | `theta/encoder.go`, `theta/decoder.go` | round trip |
| C15-C19 | `frequencies/*` map at array level and sketch | invariant by induction over operations |
| C20-C22 | `count/count_min_sketch.go` | induction over streams |
| C23-C27 | `filters/*` | induction over operations, bit-level |
| C28-C31 | `hll/*` list, set, arrays 4/6/8, aux map, union | refinement to slot-wise maximum |
| C32-C34 | `kll/items_sketch.go` (`Update`, `Merge`, `Reset`, constructor; flat array with level boundaries as in the code) | the flat array refines a list of levels; invariants for every coin sequence and every program over several sketches |
| C35 | `internal/inequality_search.go` | loop invariant |
| C36 | `kll/items_sketch_sorted_view.go` with the cached view of the sketch; `common/quantiles/numeric_sorted_view.go`, `internal/quantiles/*` (ranks over the rationals; NaN not modelled; `compareFn` is the strict order of a linear order) | the merge sort of the levels is a sorted permutation; rank and quantile searches refine sums over the weighted retained items; caches are invisible (equality of programs) |
| C37, C38 | `req/sketch.go` (constructor, `Update`, `Merge`, `Reset`, extremes, iterator), `req/compactor.go`, `req/utils.go`.  Arrays with their free end as in the code; float items are a linear order (so -0.0 and 0.0 are one item, NaN is not modelled); the quotient by the square root of two is a parameter whose square is within 1/1000 of x^2/2 | invariants of compactor and sketch for every coin sequence and every program over several sketches |
| C39 | `sampling/reservoir_items_sketch.go` | invariant over every run; expected values by induction on the stream; every k-subset has probability 1/C(n,k) |
| C40 | `sampling/varopt_items_sketch.go`, weights over the rationals (no rounding; the confidence bounds are in C95; slice growth and serialization are not modelled) | heap and candidate-set invariants over every run; the subset estimate is a martingale |
| C41, C42 | boundary inputs of the Bloom and count-min code | defect witnesses and the exact range of validity |
| C43 | `theta/wrapped_compact_sketch.go` | equality with the decoded sketch for every input |
| C44 | `theta/decoder.go` on arbitrary bytes | case analysis; the full claim is false, witnesses proved |
| C45 | purge of `frequencies/*` | each purge decreases half of the sample by the full median; potential argument |
| C46 | `sampling/reservoir_items_union.go` (without `UpdateFromRaw` and serialization) | every run of the merges; the subset estimate is a martingale |
| C47 | `sampling/varopt_items_union.go` and `decreaseKBy1` (rationals; the branch of `decreaseKBy1` for an empty H region is modelled but unreachable from `Result`) | bookkeeping invariant of the outer tau; every run of the coercers; martingale |
| C49 | same model as C37, with the sorted view | every compaction keeps half of the nominal capacity at the accurate end, so a level-h event changes no rank near that end |
| C50 | `RankLowerBound`, `RankUpperBound`, `QuantileLowerBound`, `QuantileUpperBound` over the rationals (the relative error constant is a parameter, since it is a square root) | monotonicity of quantiles in the rank; failing cases proved; at the accurate end (C49) the interval is the point of the true rank (`ReqBoundsProps`) |
| C51 | the coin of a compactor as a random choice, kept for every second compaction; programs of `NewSketch`, `Update`, `Reset` and queries | `RandMirror.lean`: each run is paired with the run in which one coin (a level, a pair of compactions) is reversed; by `ReqFair.lean` the sizes and the lower levels agree and the error made with this coin changes its sign; sum over the coins.  With `Merge` the claim is false (`C51_merge_bias`, by evaluation of one program on all its coins) |
| C52 | as C51, with the schedule of sections (trailing ones of the state, doubling of the number of sections) | `ReqSched.lean`: at most 18·I/k compactions of a level touch the I items of interest that came to it; `ReqFlow.lean`: invariant of every level (what came, left, stays); `ReqSpread.lean`: the weight that comes to a level loses 3k items per level that is touched, so the sum of the mean squares telescopes; errors with different coins are uncorrelated (pairing of runs as in C51).  Not claimed: the smaller constant that the code uses in its rank bounds; it is empirical |
| C48 | same model as C32 | the rank is a martingale; potential argument bounds the sum of 4^h over compactions by 10.5 (n/k)^2 |
| C53-C57 | `tuple/hashtable.go`, `update_sketch.go`, `compact_sketch.go`, `union.go`, `intersection.go`, `a_not_b.go`.  The summary operations are a parameter (`Kind`): by value, or addresses into a memory that the operations thread through (so sharing is visible).  Estimates are in C112, bounds in C93.  Not modelled: printing, user policies other than through `update`/`merge` | `TupleStrip/TupleKeys.lean`: forgetting the summaries turns every operation into the theta operation, exactly (also errors and panics); so hashes follow from C01-C10.  Summaries: invariants with a frame of objects in use elsewhere, for every kind that satisfies the laws of `TupleLaws.lean` |
| C58-C60 | `tuple/encoder.go`, `decoder.go`, `arrayofnumbers_sketch_encoder.go`, `arrayofnumbers_sketch_decoder.go`, `arrayofstrings_sketch.go` over sketches that carry the contents of summaries; `io.Reader` as a monad of sequential reads (`ByteReader.lean`).  Not modelled: running out of memory on a huge entry count | field by field; `Strict` readers (no panic, prefix-free) are closed under sequencing |
| C61 | `tuple/arrayofnumbers_update_sketch.go` as the generic sketch with summaries of n numbers behind pointers; number type with any addition | corollary of C53 |
| C62 | `cpc/cpc_sketch.go` update, window moves, bit matrix; `cpc/pair_table.go`; `cpc/bit_matrix.go` (CpcModel, CpcUnionRun) | invariant: table and window represent a set of cells (`SkInv`), kept by every step; probing theory of Probe for insertion and deletion |
| C63 | same | step theorem with both outcomes; counting surprises; concrete refused stream |
| C64 | `updateHIP`, `refreshKXP` over ℚ | invariant kxp = probability of a new cell (up to 2^-56 after a refresh of cut columns); mean over all pairs of 64-bit words by counting |
| C65 | `cpc/cpc_union.go` complete; walk over the source table with golden-ratio stride | state invariant `UnInv`: accumulator in sparse mode or matrix beyond; folding of rows; odd stride visits every slot |
| C66 | `Copy`, `reset`, `determineFlavor`, `determineCorrectOffset` | from `SkInv` |
| C67 | `cpc/cpc_compressed_state.go` complete, the tables of `cpc/compression_data.go` (CpcCodeTables generated from the Go text), layouts of `cpc/utils.go` (CpcCodec) | bit writer/reader refine a list of fields (CpcBits); every table is a prefix code covering its decoding table (CpcPrefix, `decide +kernel` over the whole tables); pairs and bytes as field lists (CpcPairs); sort, merge, table rebuild (CpcArrays); flavor by flavor (CpcCompress, CpcRound); bytes (CpcImage, CpcImport); twins for the continuation |
| C68 | `introspectiveInsertionSort` with its cost limit | partial: error or success, success up to 17 values; counterexample by evaluation |
| C69 | `checkLoPreamble`, `importFromMemory` | partial: header checks; two counterexamples |
| C70 | `cpc/cpc_wrapper.go`; ICON and confidence functions are parameters | partial: inversion of the import; counterexample for the empty sketch |
| C71 | tdigest/double.go `Update`, `Merge`, `compress`, `merge` over an ordered field, weights in ℕ | `Inv`: centroids and buffer partition a permutation of the values (weights, weighted sum, extremes), first and last centroid have weight 1, sorted; preserved by the merging loop in both directions; induction over `Built` |
| C72 | `Rank` with both binary searches and the tails, `CDF`, `PMF`, `ValidateSplitPoints` | `Rank` refines a relation `Pos` (piecewise linear through the centroid middles), which is shown monotone and in range |
| C73 | the same | `addThis` refuses every merge while 3n < 2k, so centroids list the sorted values |
| C74 | `Quantile` (loop over adjacent pairs, tails) | the answer lies between adjacent means; **monotonicity is false**: witness with k = 10 and 1..20 |
| C75 | scale function K2 over ℝ with `Real.log` | every refused pair covers at least 1/(N+1) of the logit scale, whose total length is 2 log (n-1) |
| C76 | `EncodeDouble` (cursor into a zeroed slice), `Encode`, `DecodeDouble`, `Decode` | encoder writes a flat list of fields; decoder reads them back field by field |
| C77 | `DecodeDouble` and `Decode` with both legacy formats | every read is guarded by a length test, except in the compact legacy format: **panic witness** |
| C78 | the four item serializers of `common`: size of one, size of many in memory, one item, many items, reading | round trip at any offset in any memory (`Lawful`), by induction on the items; the one-item form of strings differs on the empty string (`C78_one_string`), numbers panic on short memory (`C78_numbers_short`) |
| C79 | KLL `ToSlice`, `NewKllItemsSketchFromSlice`, `GetSerializedSizeBytes`, `validate`, preamble readers, for any lawful item serializer | over all runs of creations, updates, merges, resets (invariant of C33/C34): image length, exact reconstruction, same bytes again; **false** for `k > 32767` (`C79_large_k`), for `m` outside {2,4,6,8} (`C79_other_m`), for strings with an empty extreme (`C79_empty_string`) |
| C80 | frequency sketches `ToSlice`, `NewLongsSketchFromSlice`, `NewFrequencyItemsSketchFromSlice`, preamble fields, for any lawful item serializer | bit-field lemmas, exact image, refill of a fresh map (induction over the written counters: no purge happens), transfer of the invariant of C15; closure `ReachS` of the public operations with write/read cycles; **false** for sketches without counters (`C80_purged_lost`, `C80_items_empty_shrinks`) |
| C81 | reservoir sketch and union `ToSlice`, `NewReservoirItemsSketchFromSlice`, `NewReservoirItemsUnionFromSlice`, legacy size code, for any lawful item serializer | exact images; simulation of random computations (`Sim`: same draws, related results) for the life after reading; invariant of unions that were never reset (gadget of full size, or in sampling mode) over all inputs and random choices |
| C82 | VarOpt sketch and union encoder and decoder (float64 conversion as an arbitrary pair of functions that keep the written numbers), for any lawful item serializer | exact images through the invariants of C40/C41 (regions of the data array, marks); the union read back satisfies the union invariant, so `Result` has the same means; refutations with witnesses for what is false |
| C83 | HLL image writer and reader, function by function (coupon list, coupon set, three register arrays, exception map, union); float64 conversion as a pair of functions that keep float64 values | exact images through the invariants of C28-C31; the copy is in the same abstract state, so the simulation of C28 carries over to every continuation; the accumulators of a stream sketch are shown to be float64 values |
| C84 | the register array read from a slice as a view of bytes 40.. of that slice (`sharedUpdate`) | refuted in general for the 6- and 8-bit types; sole user: induction over the updates |
| C85 | the reader on arbitrary slices, out-of-range indexing as panic | header check proved for all slices; refuted with witnesses |
| C86 | update sketch histories over a finite item type with hashes drawn uniformly among injective maps into 1..2^63-1; estimate in exact rationals | theta is a stopping threshold (two hashings that differ only below theta give the same theta), so inverse-probability counts of items and of pairs have exact means; bias, mean squared error and Chebyshev tail follow |
| C87 | set expressions (sketch, compact, n-ary union, intersection, difference) evaluated with the models of C01-C10 | induction over the expression: holding exactly the items below a stopping theta is kept by every operation |
| C88 | count-min sketch with independent uniform 64-bit words per row and item (rows told apart by their seeds, assumed distinct); suggested sizes over the reals | collision probability by redrawing one word, Markov for a row, product over rows |
| C89 | internal/murmur3.go, all four hash functions, over 64-bit words | refinement to a separately written Murmur3_x64_128 on lists; every mixing step inverted, then induction over the groups |
| C90 | `HashInt32SliceMurmur3`, CPC `UpdateInt32Slice` | the words read are a function of the even positions (refuted in general); rounds are injective in one group |
| C91 | the bits hashed for a `float64` in theta, tuple, CPC, Bloom, single and array | IEEE 754 decoding as separate spec, injective but for zeros and NaNs |
| C92 | the integer, string and byte updates of theta (and tuple) sketches | every method reduced to the 64- or 32-bit form of the integer; witnesses computed with the real hash |
| C93 | all of internal/binomialbounds (tables included) over exact reals, and its callers in theta and tuple sketches | case analysis of the branches; sanity limits checked for every count by kernel computation over the whole range; the normal bounds characterised by the equation they solve; loops stop because the tails tend to 0 |
| C94 | the two summation loops and the two logarithm formulas | loop invariant: running total = binomial tail (negative binomial recurrence); monotonicity of the tails in the population; coverage by summing the distribution below the largest (above the smallest) failing count |
| C95 | `internal/binomialproportionsbounds` (all of it, over the reals), `sampling/utils.go` pseudo-hypergeometric bounds, `EstimateSubsetSum` with its bounds of reservoir and VarOpt sketches | the exponent of formula 26.5.22 is at most 1/(2a-1) for up to two standard deviations, and log(1+1/c) ≥ 2/(2c+1), so the formula never crosses the observed proportion; swapping the arguments and the sign of the formula gives one minus it; the special cases solve the Clopper–Pearson equation; then over every run through the invariants of C39, C40, C46 and C47.  Not proved: how well formulas 7.1.28 and 26.5.22 approximate the normal and beta distributions, hence no coverage probability |
| C96 | `theta/jaccard_similarity.go` and `theta/bounds_on_ratios_in_*.go` (all of it, over the reals; a sketch through its interface; identity of the two objects is a parameter) | the union of size ceil-power-of-2 of the counts never cuts anything off (C04), so union and intersection (C05) are the hashes below the common theta; equality of counts and thetas with the union forces equality of the sets; bounds from C95 with at most two standard deviations after the finite population correction |
| C97 | `tuple/jaccard_similarity.go` (the ratio files are those of theta and taken over); any kind of summaries | forgetting the summaries commutes with union, intersection and their results (as for C55, C56), so the result is that of theta on the hashes (C96) |
| C98 | text form of the long sketch: `ToString`, `NewLongsSketchFromString` `frequencies/longs_sketch.go` l.180-255, l.469-485, `serializeToString`, `deserializeFromStringArray`; texts as lists of characters; `%d`, `strings.Split`, `ParseInt`, `ParseUint` modelled (which of the two parser errors is reported is simplified) | split and parse lemmas for printed numbers; re-insertion of the counters by induction as in C80; totality for arbitrary texts by an invariant on lengths and number of taken slots |
| C99 | HLL estimate of a stream: `cubicInterpolate`, `findStraddle`, `usingXAndYTables` `hll/cubic_interpolation.go`, coupon estimate and its two tables `hll/coupon.go` l.75-149, HIP accumulator `hll/hll_array.go` l.262-279; float64 as ℚ; the accumulator arithmetic of C29 is instantiated by `hipFl` | mean over all pairs of 64-bit words as a finite sum; the slot is uniform and the value geometric (`coupon_slot`, `mean_raise`), so the expected increment is Σ 2^-r · 2^lgK / Σ 2^-r / 2^lgK = 1; induction over the number of items; interpolation by the position of the straddled interval; lower bound by comparing each increment with 1 |
| C100 | bounds and composite estimate of HLL sketches: `hll/hll_estimator.go` whole file, `hll/harmonic_numbers.go`, `hll/relative_error_tables.go`, `hll/composite_interpolation_xtables.go` (all 18 tables, generated into `HllTables.lean` in units of 10^-12), `usingXArrAndYStride`, coupon bounds `hll/coupon.go` l.81-101; float64 as ℚ, and ℝ where a logarithm or square root enters | relative errors by a check of the whole tables and √(2^lgK) ≥ 64; interpolation: the cubic through four points stays between the neighbouring ordinates when neighbouring gaps differ by at most a quarter, which is checked for all tables by the kernel; harmonic numbers are monotone; composite estimate as a function of the registers only; partial for unions: lower bound ≤ estimate is false (`C100_lower_above`) |
| C101 | CPC estimate of merged sketches: `cpc/icon_estimator.go` whole file, `cpc/icon_polynomial_coefficient.go` (all 23 rows, generated into `CpcIconTab.lean` in units of 10^-23); float64 as ℝ | the loop is the polynomial of the row (`evaluatePolynomial_eq`); `PolyCert.lean`: a checked list of step lengths proves strict growth of an integer polynomial (slope bound by Horner's rule, Taylor shift to the next interval), evaluated by the kernel for all rows (`icon_check`); the jump at the threshold by `evalQ` at 57/20 and 14/5 against rational lower bounds of `2^5.7`, `2^5.6`; unions through `C65_result` |
| C102 | CPC bounds: `cpc/confidence.go` whole file, `GetLowerBound`, `GetUpperBound` of `cpc/cpc_sketch.go`; float64 as ℝ | error factors times deviations grow and stay below 4 (whole tables, kernel), `√k ≥ 4`; number of coupons ≤ HIP (`C64_lower`) or ≤ ICON estimate (`iconVal_ge`) |
| C103 | `iconEstimate` against the expected number of coupons: `meanCells` is the mean over all hash sequences of the number of distinct cells (spec, no formula); same model as C101 | `meanCells` = sum over cells (`meanCells_new`), enclosed by `occ v = Σ (1 − e^(−v/2^(j+1)))`; `occ` enclosed at generated points by integer arithmetic (`fxOK_sound`, `decide +kernel` over the whole list of points, lifted by monotonicity in `check2_search`); rows 4–25 against row 26 by polynomial positivity certificates; exponential branch by `occ (2^m v) ≈ occ v + m`; counts above 40 k are not covered (the expected number saturates at 64 k) |
| C104 | `kll/items_sketch_iterator.go`, `kll/items_sketch_sorted_view_iterator.go` whole files, `GetIterator`; weights as wrapping int64, the caller's loop as a function | invariant `At`: position inside a level, remaining items; induction over the remaining items, inner induction over empty levels; invariant of C32 for the arrays; `ViewOf` of C36 for the view |
| C105 | `BloomBuilder.lean` (builder by accuracy, suggested sizes; float64 as ℝ, a conversion that does not fit is a panic), `BloomRate.lean` | `C105_accuracy_partial`: total, size, seed, 1 to 1075 hash functions, textbook rate at most 9/8 of the target for all item counts up to n; monotonicity of (1−2^−u)·2^(1/u) on [1,2] by its derivative, small numbers of hashes by certificates, large ones by 2^((k−t)²/t). `C105_target_missed`: the target itself is exceeded (p = 1/2) |
| C106 | `TupleNumbersOps.lean` (union, intersection, difference of array-of-numbers sketches as the generic operations of `TupleModel.lean` behind the check of the number of values) | `C106_union`, `C106_union_sums`, `C106_intersection`, `C106_a_not_b`: runs equal runs of the generic operation on the accepted inputs, then C55–C57; sums by `fold_addVec` |
| C107 | `NumericIterProps.lean` (iterator of the numeric sorted view; float64 as ℚ) | `C107_iterate`: loop over the cumulative weights by induction, view of a REQ sketch from C48/C49 (`ask_ok`); `C107_outside`, `C107_default_criterion`; `C107_zero_weight` |
| C108 | `kll/items_sketch.go` `GetPartitionBoundaries`, `kll/items_sketch_sorted_view.go:180-205`, `kll/utils.go:125-143` (the derived sizes of the parts in `items_sketch_partition_boundaries.go` are not exported and not modelled; negative numbers of partitions are not modelled, they take the branch of zero) | `KllPartition.lean`: the pinned arrays are sorted, the searches are monotone in the rank; a new invariant of all runs (two items are retained as soon as the stream has two) makes the first boundary the minimum |
| C109 | `theta/compact_sketch.go:273-278`, with the encoders of C13/C14 | `ThetaMaxSize.lean`: the capacity invariant of the table bounds the entries, at most 63 bits per entry bound the compressed form; the converted result is refuted for every size |
| C110 | `sampling/varopt_items_sketch.go:784-809` against `varopt_items_sketch_encoder.go:57-177` | `VarOptSize.lean`: length of the image from the shape of the slots (invariant of C40), marks included |
| C111 | `common/item_sketch_double.go:41-44`, `frequencies/reverse_purge_item_hash_map.go:80-137,282-290` with the comparison of keys as a parameter | `FreqFloat.lean`: equals the map of C15 when the comparison is equality, which Go's `==` is on plain bit patterns; NaN and the zeros refuted by induction over the probes and by computation with the real hash. Not modelled: growth and purge under `==`; the external `murmur3.SeedSum64` is assumed to be Murmur3 |
| C112 | `tuple/update_sketch.go`, `tuple/compact_sketch.go`: `Estimate`, `Filter`, and what a caller computes from `All` and `Theta`.  Exact rationals instead of float64; hashes are a uniformly random injective assignment, as in C86 | `TupleEstimate.lean`: mean and mean square of a sum of weights over the items below theta (theta does not depend on the order of the hashes below it: `Stops`), generalising the counts of C86.  `TupleEstimateProps.lean`: the list of entries is that sum, because the hashes are those of the theta sketch (C53) and each summary is the fold of the item's values |
| C113 | `kll/items_sketch.go`: `GetRanks`, `GetQuantiles`; `req/sketch.go`: `Ranks`, `Quantiles`, with their loops, checks and (REQ) the threading of the sketch through repeated `Rank`.  Exact rationals, finite items | `QueryArrays.lean`: the view exists and answers every query (C36), so the loops are maps; monotone because weights and natural ranks are |
| C114 | `DecodeDouble` against `Decode` (`TDigestLegacyModel.lean`: `decodeCompat` on streams; a loaded digest may hold a mean that is NaN) | a field read at the place reached in a stream is the field at that offset of the slice; then test by test; **four refutations** where the tests differ |
| C115 | query of a Bloom filter over all pairs of 64-bit hashes (`hashIndex`, `queryLoop`) | the first two indices come from `h0 + h1` and `h0 + 2 h1`, which determine the pair, so the answered pairs inject into pairs of words that lead to set bits; words per bit counted by residues of `2^63`.  More than two hash functions give no better general bound, since every further index is determined by the first two |
| C116 | `ReservoirModel`, `ReservoirSpread`, `ReservoirSpreadProps` | second moment of the estimate: `pairs` (matching ordered pairs of the sample, scaled) is shown to grow on average by the pairs the new item makes, by induction over the stream; with C39's first moment this gives the exact mean square error, `n²/(4k)` as a bound, and no error while the stream fits |
| C117 | `VarOptModel`, `VarOptSpread`, `VarOptHeavy`, `VarOptSpreadProps` | `estimate² − sum of squares of the adjusted weights` grows on average by at most what the new item adds (one downsampling step replaces a candidate set by all but one of its items at equal weights, chosen with the right probabilities); the squares are `tau·estimate` plus a constant because the items above the threshold are exactly the heavy ones of the stream (invariant `Cov`); with C40's mean this bounds the mean square error; the threshold equation has one solution, so inclusion probabilities follow from C40 |
| C118 | `ThetaSerdeModel`, `ThetaLegacyProps` | the layouts of serial versions 1 and 2 are written down apart from the decoder (`oldEstimation`, `oldExact`, `oldHead`); decoding each gives back its fields, for all hashes, thetas and unread bytes |
| C119 | `VarOptModel`, `VarOptUnionSpread`, `VarOptUnionSpreadProps` | `estimate² − sum of squares of the listed weights` is followed through a union: absorbing samples adds on average at most the products with what is there and with each other; moving the marked items to the reservoir part changes no listed weight; each reduction of k is one downsampling step of the same samples; a reservoir input has the spread of C116, whose squares are (n/k)·estimate. With the unbiasedness of C47 this gives the mean square error; the inputs' bounds are hypotheses of the same form, so unions nest |
| C120 | `BloomModel`, `XxHash`, `BloomItemsProps` | `hashLongOptimized` is modelled operation by operation and shown equal to xxHash64 of eight bytes, written down from its published description (checked on four published values). Each of its steps has an inverse, hence no two integers collide; the canonical bits of C91 carry this to float64. The library behind the byte hash (cespare/xxhash) is trusted to be xxHash64 |
| C121 | `ReservoirModel`, `ReservoirRaw`, `ReservoirRawProps` | `UpdateFromRaw` with a consistent state is shown equal to `UpdateSketch` with the sketch of that state, which satisfies the invariant of C46; induction over mixed calls.  The slice of the caller is a value with a capacity; sharing is not modelled |
| C122 | `KllError`, `KllErrorProps` | The formula over the reals (`Real.rpow`); the field it is computed from is followed through the simulation of C32 for every program. The clause on `Reset` is false (`C122_reset_refuted`), hence `C122_reset_partial`. The 99 % confidence of the documentation is an empirical fit and not expressible here. |

## Findings

Behaviour of the code that contradicts its documentation or the natural
property.  "proved" means that a theorem with a concrete witness is in the
project; the others were found while reading and are outside the model.

* theta: `Decode` panics on truncated input and on version-4 input with zero-bit
  entries (proved, C44).  An empty union with sampling probability < 1 loses its
  theta when serialized (proved, C13/C14 files).  The theta of an intersection
  that becomes empty depends on the order of the inputs (proved, C09 file).
  `MaxSerializedSizeBytes` overflows a uint8 for large lgK.
* frequencies: merging a sketch whose last purge removed every counter drops its
  stream, so bounds of the merged sketch are wrong (proved, `C18_merge_violated`).
  `NewFrequencyItemsSketchWithMaxMapSize(1)` has sample size 0 and panics at the
  seventh distinct item.  With `lgCurMapSize > lgMaxMapSize` an update can fail
  with "purge did not reduce active items".  String deserialization rejects
  negative longs.
* count-min: boundary defects proved in C42; `Deserialize` does not check the seed
  hash and accepts truncated arrays; a negative number of hashes panics.
* Bloom: 65535 hash functions loop forever (C41); a deserialized filter with
  zero length panics on a query; a corrupt bit count of 0 gives false negatives.
* HLL: `union.go` l.244 never sets `bit3`, so a register-mode source with fewer
  slots than a register-mode gadget is merged slot by slot into the first slots
  (proved, `C30_smaller_merges_wrong_slots`, `C30_smaller_violated`); a source of
  larger lgK than the union is rejected with "not implemented" (proved for
  register mode).  The estimate and bound methods of the union do not recompute
  the stale accumulators; only `GetResult` does (proved, `C30_estimate_stale`).
  An HLL4 sketch fails with an error when more than 3/8 of its slots are
  exceptions (proved, exact condition `RoomAll`, witness `C28_hll4_can_fail`).
  `checkRebuildCurMinNumKxQ` adds `2^-v - 1` to the accumulator of large values
  too, which is exact over the integers of the model but rounds in float64.
  Deserialization does not validate lgK or the coupon count.
* KLL: `m` is not validated: `m < 2` and `m > k` are accepted and a later update
  panics (proved, `C32_m_below_two_panics`, `C32_m_above_k_panics`);
  `uint64(k<<1)` overflows for k >= 32768, so that the level capacities are far
  too small (proved, `C48_k_overflow`).  `Reset` keeps the reduced `minK` of an
  earlier merge.  Merging a sketch into itself reads the array it is changing
  (outside the model: `Valid` excludes it).  `GetPartitionBoundaries` overwrites the
  ends of the cached view, so that ranks reported afterwards change (proved,
  `C36_partition_changes_rank`).  The view mixes `compareFn` and `==`; a comparison
  function under which different items tie gives an unsorted view.
* REQ: a fresh sketch has minimum and maximum 0, so merging into a fresh sketch
  yields wrong extremes (proved, `C38_phantom_zero`).  In estimation mode
  `QuantileLowerBound(0, sd)` with high rank accuracy and `QuantileUpperBound(1, sd)`
  without it return an error, because the rank bound leaves [0, 1] (proved,
  `C50_quantile_bound_errors`).  `Merge` ORs the states but does not take over the coin, so that after
  merging into a new sketch the next half is chosen deterministically and the estimate is biased
  (`C51_merge_bias`).
* tuple: `Union.Update` and the first `Intersection.Update` store the summaries of
  their input without cloning, so with summaries behind pointers later updates
  change the input sketches, the same sketch given three times counts four
  times, results of a union change with its next update, and `Union.Reset` can
  zero the summaries of inputs (proved, C55/C56 witnesses).
  `NewCompactSketchFromThetaSketch` gives one summary object to all entries
  (proved, `C54_from_theta_shares_one_summary`).
* tuple: an empty sampling union's result has theta below 1, which
  serialization drops (proved, `C58_empty_union_loses_theta`);
  `GenerateHashKeyFromStrings` hashes `["a,b"]` and `["a","b"]`, and `[]` and
  `[""]`, to the same key (proved, `C60_keys_collide`); array-of-numbers updates
  with a too short slice panic (proved, `C61_short_slice_panics`).
* cpc: an update returns an error when the surprising cells do not fit into the largest table
  (`C63_refused`: 512 hashes for lgK = 4); the sketch is then left half changed.  Not reachable with
  a good hash function.  `GetResult` of a union does not check that the window offset is at most 56
  (`modifyOffset` does), so beyond 475/8 K coupons it returns a sketch that refuses every use; C65
  has this bound as hypothesis.  The exception for `rowCol == -1` is dead code (`rowCol` is never
  negative).  Not modelled in cpc: rounding of the estimates, the
  validation and characterization programs (test utilities).
* cpc serialization: `introspectiveInsertionSort`, when the cost exceeds 8n, sorts only the part from
  the position of the last insertion on (`b[j : r+1]`), so `ToCompactSlice` returns an error for some sketches (C68_refused: 24 items).
  `NewCpcSketchFromSlice` does not compare the seed hash (C69_seed_unchecked), and panics on bytes cut
  after the header (C69_truncated).  `CpcWrapper` of an empty sketch reads the header as the estimate
  (C70_empty).  A merged sketch does not store `kxp` and the hip accumulator; they come back as 2^lgK
  and 0.
* tdigest: `Quantile` interpolates with swapped weights (`weightedAverage(c[i].mean, w1, c[i+1].mean, w2)` where `w1` is the distance *from* `c[i]`): with k = 10 and the values 1..20, Quantile(0.15) = 6 but Quantile(0.25) = 4 (`C74_quantile_not_monotone`). `Quantile(NaN)` returns NaN and no error (`C74_nan_rank`).
* tdigest: `DecodeDouble` panics on a 28- or 29-byte input in the compact legacy format: 24 bytes are required but 26 are read (`C77_panics`).
* tdigest (read, not proved): the right tail of `Quantile` adds to `max` instead of subtracting (reachable only for decoded digests whose last centroid weighs more than 1); a decoded buffer longer than `cap*4` is never compressed by `Update` (equality test); the decoder does not check that the means are sorted. Weights are natural numbers in the model: doubling a digest by self-merging 64 times would wrap in Go.
* common: `ItemSketchStringSerDe.SerializeOneToSlice("")` writes nothing although `SizeOf("")` is 4 (`C78_one_string`); as a consequence a KLL sketch of strings with `""` among two or more items comes back with a wrong minimum and wrong items (`C79_empty_string`).
* common: reading numbers (`int64`, `float64`, `float32`) from a short slice panics rather than returning an error (`C78_numbers_short`).
* kll: for `k > 32767` the capacity of two levels is computed in `uint16` (`k << 1`), so the image of a sketch with 2..32759 items cannot be read back: the decoder panics (`C79_large_k`).
* kll: the constructor accepts any `m` and `ToSlice` succeeds, but the decoder refuses odd `m` (`C79_other_m`).
* kll: decoding eight zero bytes panics (`C79_decoder_panics`).
* frequencies: a sketch whose last purge removed every counter is serialized as an empty sketch: stream weight and maximum error are lost, upper bounds become 0 (`C80_purged_lost`).
* frequencies: an empty `ItemsSketch` always comes back with a maximum map size of 8, whatever it was created with (`C80_items_empty_shrinks`).
* frequencies: both readers panic on a preamble of one long that is not marked empty (`C80_reader_panics`).
* sampling: `NewReservoirItemsSketchFromSlice` panics on eight bytes that are not marked empty
  (`C81_reader_panics`), accepts a negative number of items (`C81_reader_negative`), and `k` is cut to
  32 bits by the writer (`C81_large_k`).  A resize factor above 3 is accepted by the constructor and
  refused by the writer (`C81_bad_resize`).  A union whose gadget has a smaller `k` (only possible
  after `Reset`) comes back with `k = maxK` (`C81_union_any`).
* sampling, VarOpt serialization: the decoder sets the size of the gap to 1 as soon as there are light
  samples (varopt_items_sketch_decoder.go l.197-200), so every `Update` of a decoded sketch in sampling
  mode fails (`C82_decoded_refuses_updates`) and a decoded union in sampling mode refuses every
  non-empty sketch (`C82_union_decoded_refuses`); its `Result` is right.  The encoder demands that the
  data array has length h+r+1, but the array is never shrunk when the union lowers k, so the result of
  a union in sampling mode with marked samples cannot be written (`C82_result_not_encodable`, witness
  `C82_result_not_encodable_witness`).  By reading only: the decoder accepts NaN and infinite weights
  (only `w <= 0` is refused), and a union that holds no samples but has n > 0 is written as empty.
* hll: `NewHllSketchFromSlice` keeps the register bytes of the caller's slice (`extractCommonHll` does
  not copy) although its comment says the slice is neither modified nor retained; two sketches read
  from one slice corrupt each other (`C84_slice_retained`).  Unions copy and are not affected.
* hll: `NewHllSketchFromSlice` panics on truncated images, on LIST images with more than eight coupons,
  on `lgK = 0`, and on mode 3 with a short preamble; `NewUnionFromSlice` panics on slices of fewer than
  four bytes (`C85_panics`, `C85_union_panics`).
* hll: a union image carries the `lgK` of the gadget, not `lgMaxK`; after reading it back the union's
  `lgMaxK` is the gadget's `lgK` (by reading the code; with the inputs of C30/C83 the two agree).
* count: `SuggestNumHashes(1)` converts +Inf to an int8 (implementation-defined in Go; 0 on amd64), and a
  sketch with 0 hash functions is accepted and answers MaxInt64 to every query (C42).
* hashing: `HashInt32SliceMurmur3` never reads the elements at odd positions, so
  `CpcSketch.UpdateInt32Slice` counts `[1,2]` and `[1,3]` as one item, for every seed (proved,
  C90).
* theta, tuple: `UpdateInt32/16/8` and `UpdateUint16/8` hash four bytes, `UpdateInt64`,
  `UpdateUint64` and `UpdateUint32` eight, so the integer 5 counts once per group;
  `UpdateString(s)` and `UpdateBytes([]byte(s))` are different items, because strings are hashed
  four bytes to a word (proved, C92).
* Bloom filter: `UpdateFloat64` canonicalises zeros and NaNs, `UpdateFloat64Array` does not
  (proved, C91).
* binomial bounds (float64 only, outside the model): for theta below 2^-54, `1 - theta` rounds to 1, its logarithm is 0, and the upper bound for no retained hash becomes max(0, -Inf) = 0; it needs streams of more than 2^54 items.
* theta `Jaccard`: for disjoint exact sketches with more than 2^26 hashes together the union has to
  cut its theta, the intersection (empty, exact) keeps theta 1, and the call fails with "theta_a must
  be <= theta_b" (`C96_too_large`; tuple `Jaccard` has the same code).
* theta `Jaccard`: two sketches made with a sampling probability below 1 that have seen different
  items but retained none have the same theta and no hashes, and are reported as equal with index 1
  and bounds [1, 1] instead of [0, 1] (`C96_no_evidence`).
* tuple `Jaccard`, `IsExactlyEqual`, `IsSimilar`, `IsDissimilar` change the summaries of their first
  argument when summaries are pointers: they merge into the very objects of the sketch.  With counters
  1 and 10 for a common hash, `IsExactlyEqual` leaves 11 (`C97_equality_changes_input`) and `Jaccard`
  leaves 42 (`C97_jaccard_changes_input`).
* frequencies: `NewLongsSketchFromString` parses the keys as unsigned numbers, so the text of a sketch
  that counts a negative item cannot be read (`C98_negative_unreadable`).
* frequencies: a text that announces a map of a single slot, for example `1,10,3,0,7,0,1,1,5,7`, is
  accepted; the map is then full and the query for any other item never ends
  (`C98_full_map_accepted`).
* hll: the lower bound of the result of a union can exceed its estimate, even for one standard
  deviation: with sixteen slots of which ten hold the value 1 the composite estimate is 9.18 while
  the lower bound is the number of slots hit, 10 (`C100_lower_above`; the same happens for larger
  tables).
* cpc: the argument of `GetLowerBound`/`GetUpperBound` is not checked. With items in the sketch, 4
  standard deviations panic at `lgK = 14` (index out of range), read the row of the next size below
  it, and work above it; 0 panics at `lgK = 4`; 6 at `lgK = 4` gives a negative upper bound
  (`C102_unchecked`).
* kll: `ItemsSketchIterator.Next` panics (index out of range) when called again after it has returned
  false (part of `C104_iterate`).
* filters: `NewBloomFilterByAccuracy` rounds the number of hash functions up from the rounded-up size; for a target of 1/2 it takes 2 hash functions (`SuggestNumHashes` says 1) and the textbook rate is above 0.56 (C105_target_missed). It never exceeds 9/8 of the target.
* common/quantiles: the sorted view of a REQ sketch can show a retained item with weight 0, when the minimum of the stream is not retained and the first retained item has weight 1 (C107_zero_weight).
* tuple: an empty array-of-numbers sketch with another number of values is ignored by a union but refused by an intersection, which then stays as it was instead of becoming empty (C106).
* theta: `CompactSketch.MaxSerializedSizeBytes` returns `uint8(8 * (3 + capacity))`; for the smallest
  sketch (lgK 5) this is 248 instead of 504, for lgK 12 it is 24 instead of 61464 (proved for every
  size, `C109_promise_broken`).
* frequencies: keys are compared with `==` but hashed by their bits. For float64 items a NaN is never
  found again (each update takes a new slot, its upper bound is the offset), and `0.0` and `-0.0` are
  counted apart although equal (proved, C111).
* tdigest: the stream decoder accepts a maximum that is NaN (`C114_nan_max`), takes every unknown legacy type for the compact one (`C114_unknown_type`) and lets a NaN mean through in the compact legacy format (`C114_nan_mean`), where the slice decoder refuses; the slice decoder accepts a NaN weight there (`C114_nan_weight`).
* filters: `NewBloomFilterFromSlice` believes the count of set bits in the image unless it is the
  mark 0xFFFFFFFFFFFFFFFF; an image with a wrong count is accepted and `BitsUsed`, `IsEmpty` and the
  fill then report it (part of `C27_accepted_images`).
* sampling: `ReservoirItemsUnion.UpdateFromRaw` accepts a count below the number of items (also a
  negative one): the result then reports `N() = 1` with three samples (`C121_inconsistent_refuted`).
  An empty slice without capacity, given first and with `k = maxK`, becomes the sketch of the union
  as it is, cannot grow (0 doubled is 0), and every later `Update` fails (`C121_empty_blocks`).
* kll: `Reset` does not restore `minK`: a sketch with `k = 200` into which an estimating sketch with `k = 8` was merged announces after `Reset` the rank error of `k = 8` although it is empty (`C122_reset_refuted`).
* sampling: `ReservoirItemsUnion.Reset` on a fresh union dereferences nil (proved,
  `C46_reset_fresh_panics`); a union with `maxK < 2` is accepted and panics on
  update (proved, `C46_small_maxK_panics`); the documented limit of min(k1,k2)
  samples is not kept (proved, `C46_more_than_min_k`).
* sampling: `VarOptItemsSketch.EstimateSubsetSum` in exact mode reports the
  weight of the matching items as `TotalSketchWeight` (proved,
  `C40_exact_total_is_wrong`).
* sampling: `VarOptItemsUnion.Result` checks whether an H item is lighter than
  `gadget.tau()`, but only when the gadget is in exact mode, where tau is NaN;
  the check never fires, and the result can be a sketch on which every `Update`
  returns an error (proved with a witness, `C47_result_refuses_updates`).  The
  union also compares the transferred weight with an absolute tolerance of
  1e-10, which rounding can exceed for large weights (not modelled: rationals).
