{"id": "C01", "title": "Theta sketch retains exactly the distinct hashes below theta", "statement": "After any sequence of updates, trims and resets on a theta update sketch, the set of retained hash values equals the set of distinct non-zero hashes presented since the last reset that are strictly below the sketch's current theta; each retained hash appears exactly once.", "quantifier": "every nominal size, resize factor, sampling probability, hash function and finite history of update/trim/reset", "why_tests_cant": "The retained set depends on the whole history through table resizes and rebuilds at data dependent moments; tests only sample a few histories.", "anchors": ["theta/hashtable.go: Hashtable.Insert, find, resize, rebuild, Trim, Reset, HashInt64AndScreen", "theta/update_sketch.go: quickSelectUpdateSketch"]}
{"id": "C02", "title": "Theta sketch is exact until it must sample", "statement": "With sampling probability 1, as long as the number of distinct hashes presented does not exceed the rebuild capacity of the full-size table, theta stays at its maximum value, the sketch reports not being in estimation mode and the number of retained entries equals the number of distinct non-zero hashes.", "quantifier": "every stream whose number of distinct hashes stays within the capacity, in every order and with any repetition", "why_tests_cant": "Order and repetition of the stream are unbounded.", "anchors": ["theta/hashtable.go: Insert, computeCapacity", "theta/update_sketch.go: IsEstimationMode"]}
{"id": "C03", "title": "Theta update never fails, overfills its table or loops", "statement": "For every update the slot search terminates at a matching or free slot, never reports a full table, and at least one slot stays free; the number of retained entries never exceeds the documented fraction of the table.", "quantifier": "every reachable table state and every hash", "why_tests_cant": "Termination of open addressing depends on the invariant that a free slot always exists for all reachable states.", "anchors": ["theta/hashtable.go: find, Insert, resize, rebuild"]}
{"id": "C04", "title": "Theta only decreases and trimming keeps the k smallest hashes", "statement": "No update or trim ever increases theta; after a trim of a sketch with more than k entries exactly k entries remain, they are the k smallest retained hashes and theta becomes the (k+1)-th smallest.", "quantifier": "every reachable sketch state", "why_tests_cant": "Requires reasoning about selection for all tables.", "anchors": ["theta/hashtable.go: rebuild, Trim", "internal/quick_select.go: QuickSelect"]}
{"id": "C05", "title": "QuickSelect returns the k-th order statistic and only permutes", "statement": "For any slice and any index within its bounds the selection routine returns the element that would be at that index after sorting, leaves no larger element before it and no smaller element after it, only permutes the slice, never indexes outside the slice and terminates.", "quantifier": "every slice, every lo<=pivot<=hi", "why_tests_cant": "All permutations with duplicates of unbounded length.", "anchors": ["internal/quick_select.go: QuickSelect, partition, QuickSelectFunc"]}
{"id": "C06", "title": "Compacting a theta sketch loses nothing", "statement": "The compact form of a sketch has the same theta, emptiness, and set of retained hashes as the source; the ordered form is strictly ascending.", "quantifier": "every reachable update sketch, ordered or not", "why_tests_cant": "Quantifies over all sketch states.", "anchors": ["theta/compact_sketch.go: NewCompactSketch", "theta/update_sketch.go: Compact"]}
{"id": "C07", "title": "Theta union result", "statement": "After any sequence of union updates the result's theta is at most every input theta, the result retains exactly the hashes below its theta that occur in at least one non-empty input, and at most k entries are retained; it is empty exactly if all inputs are empty.", "quantifier": "every sequence of valid input sketches and every k", "why_tests_cant": "Union has early stop, theta filtering and trimming whose interaction depends on arbitrary inputs.", "anchors": ["theta/union.go: Union.Update, Result"]}
{"id": "C08", "title": "Theta union does not depend on the order of its inputs", "statement": "The result (theta and retained set) of a union over the same inputs is the same for every order of presentation and every physical layout (ordered or unordered) of the inputs.", "quantifier": "every permutation of every list of valid inputs", "why_tests_cant": "Factorially many orders.", "anchors": ["theta/union.go: Union.Update, Result"]}
{"id": "C09", "title": "Theta intersection result", "statement": "After any non-empty sequence of intersection updates: if the result is not flagged empty, no input was empty, its theta is the minimum of the input thetas and it retains exactly the hashes below that theta that occur in every input; if it is flagged empty it retains nothing and is exact, and either an input was empty or a prefix of exact inputs already had no hash in common. The outcome is the same for ordered and unordered inputs. (The flagged-empty case makes the reported theta depend on the order of the inputs; this is shown by a witness.)", "quantifier": "every sequence of valid inputs in every physical layout", "why_tests_cant": "Early-stop and hash-table paths depend on data.", "anchors": ["theta/intersection.go: Intersection.Update, Result"]}
{"id": "C10", "title": "Theta A-not-B result", "statement": "The difference of two sketches is empty if A is empty; otherwise its theta is the minimum of both thetas and it retains exactly the hashes of A below it which do not occur in B; sort-based and hash-based algorithms agree.", "quantifier": "every pair of valid sketches in every layout", "why_tests_cant": "Two algorithms chosen by layout must agree on unbounded inputs.", "anchors": ["theta/a_not_b.go: ANotB, aNotB.compute, computeSortBased, computeHashBased"]}
{"id": "C11", "title": "Bit packing of 8-entry blocks is lossless for every width", "statement": "For every entry width from 1 to 63 bits, unpacking the bytes produced by packing eight values that fit in the width gives back those values.", "quantifier": "all 63 widths and all 8-tuples of values that fit", "why_tests_cant": "2^504 inputs for the widest block; 126 hand-unrolled functions.", "anchors": ["theta/bit_packing.go: packBits1..63, unpackBits1..63, packBitsBlock8, unpackBitsBlock8"]}
{"id": "C12", "title": "Bit-stream packing of a tail of values is lossless", "statement": "Packing any list of values of a common width at any bit offset into a zeroed buffer and unpacking them gives the same values and touches only the bits belonging to them.", "quantifier": "every width 1..63, every list of fitting values", "why_tests_cant": "Unbounded inputs and offsets.", "anchors": ["theta/bit_packing.go: packBits, unpackBits"]}
{"id": "C13", "title": "Serialized theta sketches decode to themselves", "statement": "Encoding any valid compact sketch in uncompressed form and decoding the bytes with the same seed yields a sketch with identical theta, emptiness, ordering and entries in the same order; the number of bytes equals the advertised serialized size.", "quantifier": "every valid compact sketch", "why_tests_cant": "Unbounded sketch contents.", "anchors": ["theta/encoder.go: Encoder.Encode, MarshalBinary", "theta/decoder.go: Decode"]}
{"id": "C14", "title": "Compressed theta serialization is lossless", "statement": "Encoding any ordered sketch suitable for compression in compressed form and decoding the bytes yields identical theta and entries.", "quantifier": "every ordered sketch accepted by the compressed encoder", "why_tests_cant": "Delta coding and width computation depend on all entries.", "anchors": ["theta/encoder.go: encodeCompressed", "theta/decoder.go: decodeV4", "theta/compact_sketch.go: computeEntryBits"]}
{"id": "C15", "title": "Frequency sketch bounds always bracket the true count", "statement": "For every item, after any stream of updates the reported lower bound is at most the true total weight and the upper bound is at least the true total weight.", "quantifier": "every item, every stream of weighted updates, every map size", "why_tests_cant": "Purges happen at data-dependent moments and rearrange the table.", "anchors": ["frequencies/longs_sketch.go: UpdateMany, GetLowerBound, GetUpperBound", "frequencies/items_sketch.go"]}
{"id": "C16", "title": "Frequency sketch error band", "statement": "For every item, upper bound minus lower bound is at most the reported maximum error, and total reported stream weight equals the sum of all weights presented.", "quantifier": "every item and stream", "why_tests_cant": "Unbounded histories.", "anchors": ["frequencies/longs_sketch.go: GetMaximumError, GetStreamLength"]}
{"id": "C17", "title": "Frequent-items queries have no false negatives / false positives", "statement": "With no-false-negatives every tracked or untracked item whose true weight exceeds the maximum of the threshold and the maximum error is returned; with no-false-positives every returned item's true weight is at least the threshold.", "quantifier": "every stream, threshold and item", "why_tests_cant": "Unbounded histories.", "anchors": ["frequencies/longs_sketch.go: GetFrequentItemsWithThreshold", "frequencies/row.go"]}
{"id": "C18", "title": "Merging frequency sketches keeps bounds valid", "statement": "After merging any two sketches the bounds bracket the true total weight of the concatenated streams.", "quantifier": "every pair of streams", "why_tests_cant": "Unbounded histories. (The code violates this when the merged-in sketch has just purged everything; the violation is shown with a witness.)", "anchors": ["frequencies/longs_sketch.go: Merge, IsEmpty"]}
{"id": "C19", "title": "Purging map keeps every counter reachable", "statement": "The reverse-purge map behaves like a finite map from keys to counters under any sequence of adjustments, deletions of non-positive counters and resizes: every key with a positive counter is found and no other key is.", "quantifier": "every sequence of operations and every hash function", "why_tests_cant": "Back-shifting deletion in open addressing is only correct if an ordering invariant holds for every cluster shape.", "anchors": ["frequencies/reverse_purge_long_hash_map.go: adjustOrPutValue, hashProbe, hashDelete, keepOnlyPositiveCounts, purge, resize"]}
{"id": "C20", "title": "Count-min estimate never underestimates", "statement": "For every stream of non-negative weights and every item the estimate is at least the item's true total weight and at most the total weight of the stream.", "quantifier": "every stream, item and family of hash functions", "why_tests_cant": "Collision patterns depend on unbounded inputs.", "anchors": ["count/count_min_sketch.go: Update, GetEstimate"]}
{"id": "C21", "title": "Count-min merge equals processing both streams", "statement": "Merging two compatible sketches yields exactly the state reached by one sketch processing both streams, in any order.", "quantifier": "every pair of streams", "why_tests_cant": "Unbounded streams.", "anchors": ["count/count_min_sketch.go: Merge"]}
{"id": "C22", "title": "Count-min serialization round-trips", "statement": "Serializing and deserializing a sketch yields the same counters, total weight and parameters.", "quantifier": "every reachable sketch", "why_tests_cant": "Unbounded state.", "anchors": ["count/count_min_sketch.go: Serialize, Deserialize"]}
{"id": "C23", "title": "Bloom filter has no false negatives", "statement": "Any item inserted since creation or last reset is reported present, whatever other insertions, unions with compatible filters, or serialization round trips happened in between.", "quantifier": "every item, every history and hash function", "why_tests_cant": "Unbounded histories.", "anchors": ["filters/bloom_filter.go: internalUpdate, internalQuery, Union, FromSlice"]}
{"id": "C24", "title": "Bloom filter reports the exact number of set bits", "statement": "BitsUsed always equals the number of bits set in the filter after any sequence of operations.", "quantifier": "every history", "why_tests_cant": "The count is maintained incrementally and lazily (dirty flag).", "anchors": ["filters/bloom_filter.go: BitsUsed, internalQueryAndUpdate, Union, Intersect, Invert", "filters/bit_array.go"]}
{"id": "C25", "title": "Bloom query-and-update equals query followed by update", "statement": "QueryAndUpdate returns what Query would have returned before and leaves the filter as Update would.", "quantifier": "every filter state and item", "why_tests_cant": "All states.", "anchors": ["filters/bloom_filter.go: internalQueryAndUpdate"]}
{"id": "C26", "title": "Bloom set operations are bitwise", "statement": "Union contains exactly the bits of either operand, Intersect exactly the common bits, Invert exactly the complement within the capacity; inverting twice is the identity.", "quantifier": "every pair of compatible filters", "why_tests_cant": "All states.", "anchors": ["filters/bloom_filter.go: Union, Intersect, Invert"]}
{"id": "C27", "title": "Bloom serialization round-trips", "statement": "Serializing any filter and reading it back yields a filter with the same bits, hashes, seed and emptiness. Exactly the images of the documented form are accepted, each giving the filter it stands for; an image whose count is marked unknown gives a filter with the exact count, and no image makes the call panic.", "quantifier": "every reachable filter", "why_tests_cant": "All states.", "anchors": ["filters/bloom_filter.go: ToCompactSlice, NewBloomFilterFromSlice"]}
{"id": "C28", "title": "HLL registers are slot-wise maxima", "statement": "After any stream of updates an HLL sketch in register mode holds in every slot the maximum value over all coupons addressed to that slot; before promotion it holds exactly the set of distinct coupons.", "quantifier": "every stream, every lgK, every target type", "why_tests_cant": "Promotion moments and internal exception tables depend on data.", "anchors": ["hll/hll_sketch.go: couponUpdate", "hll/coupon_list.go", "hll/coupon_hash_set.go", "hll/hll_8array.go", "hll/hll_6array.go", "hll/hll_4update.go"]}
{"id": "C29", "title": "HLL4, HLL6 and HLL8 are equivalent", "statement": "The three target types represent the same register contents for the same stream and converting between them preserves every register.", "quantifier": "every stream and lgK", "why_tests_cant": "4-bit encoding with moving offset and exception table must agree for all streams.", "anchors": ["hll/hll_4update.go: internalHll4Update, shiftToBiggerCurMin", "hll/hll_4array.go: convertToHll4, getSlotValue", "hll/hll_6array.go: convertToHll6", "hll/hll_8array.go: convertToHll8"]}
{"id": "C30", "title": "HLL union is slot-wise maximum and order independent", "statement": "Merging sketches and items into an HLL union gives, for every target type, the sketch contents of the concatenated streams: below the promotion threshold the set of distinct coupons, above it slot-wise maxima; the order of the inputs and their split over sketches does not matter. Sketches of any lgK below the promotion threshold may be merged; sketches in register mode must have the union's lgK.", "quantifier": "every sequence of items and sketches, every target type of the inputs and the result", "why_tests_cant": "Unbounded inputs and modes. (Without the restriction the claim is false: a register-mode source of smaller lgK is merged into the wrong slots, shown in general and with a witness.)", "anchors": ["hll/union.go: unionImpl, mergeHlltoHLLmode, checkRebuildCurMinNumKxQ, GetResult", "hll/coupon.go: mergeCouponTo"]}
{"id": "C31", "title": "HLL register packing round-trips", "statement": "Reading back a 6-bit or 4-bit register after writing gives the written value and leaves all other registers unchanged.", "quantifier": "every array, slot and value", "why_tests_cant": "All byte arrays.", "anchors": ["hll/hll_6array.go: get6Bit, put6Bit", "hll/hll_array.go: getNibble, putNibble"]}
{"id": "C32", "title": "KLL preserves total weight", "statement": "For every stream, every outcome of the random coin and any merges, the sum over levels of 2^level times the number of items equals N.", "quantifier": "every stream, coin sequence, k and history", "why_tests_cant": "Random outcomes and data.", "anchors": ["kll/items_sketch.go: updateItem, compressWhileUpdatingSketch, generalItemsCompress, mergeItemsSketch"]}
{"id": "C33", "title": "KLL min and max are exact and retained items come from the stream", "statement": "Min/max equal the extremes of all presented items, and each retained item was presented.", "quantifier": "every stream, coin sequence and history", "why_tests_cant": "Random outcomes.", "anchors": ["kll/items_sketch.go: updateItem, mergeItemsSketch"]}
{"id": "C34", "title": "KLL rank error is bounded by the compactions performed", "statement": "For every item the weighted rank in the sketch differs from the true rank by at most the sum of 2^h over compactions performed at level h, whatever the coin does; with no compaction ranks are exact.", "quantifier": "every stream, coin sequence, query point", "why_tests_cant": "Random outcomes.", "anchors": ["kll/items_sketch.go: compressWhileUpdatingSketch, randomlyHalveUpItems, randomlyHalveDownItems, mergeSortedItemsArrays"]}
{"id": "C35", "title": "Inequality search is correct", "statement": "On a sorted slice the search returns the extreme index satisfying the criterion or -1 if none does, never reads outside the range and terminates.", "quantifier": "every sorted slice, value and criterion", "why_tests_cant": "Unbounded slices with duplicates.", "anchors": ["internal/inequality_search.go: FindWithInequality"]}
{"id": "C36", "title": "Sorted-view ranks and quantiles are consistent", "statement": "Rank is monotone, lies in [0,1], counts exactly the weight below (or at or below) the value, and Quantile(r) is the smallest retained item whose cumulative weight reaches the rank.", "quantifier": "every sorted view, value, rank and criterion", "why_tests_cant": "All views.", "anchors": ["kll/items_sketch_sorted_view.go", "common/quantiles/numeric_sorted_view.go: Rank, Quantile, CDF, PMF"]}
{"id": "C37", "title": "REQ preserves total weight", "statement": "For every stream, coin outcome and merge sequence the total weight of retained items equals N and the retained count equals the number of items held.", "quantifier": "every stream, coin sequence and history", "why_tests_cant": "Random outcomes.", "anchors": ["req/sketch.go: Update, compress, Merge", "req/compactor.go: Compact"]}
{"id": "C38", "title": "REQ min/max", "statement": "MinItem/MaxItem equal the extremes of the stream for every update sequence.  For merging into a fresh sketch the code violates it (shown with a witness).", "quantifier": "every stream", "why_tests_cant": "Unbounded histories.", "anchors": ["req/sketch.go: Update, Merge, MinItem, MaxItem"]}
{"id": "C39", "title": "Reservoir holds a uniform sample of the stream", "statement": "After n updates the reservoir holds min(n,k) items, all stream items at distinct positions; with n<=k it holds all in order; no update fails.  Over independent uniform draws every k-subset of a stream of distinct items is the sample with probability 1/C(n,k), so every item is included with probability k/n, and the subset-sum estimate of every predicate has the true count as its expected value.", "quantifier": "every stream up to the documented 2^48-1 items, every k>=2 and resize factor, every random outcome", "why_tests_cant": "Uniformity is a statement on all random outcomes.", "anchors": ["sampling/reservoir_items_sketch.go: NewReservoirItemsSketch, Update, Reset, EstimateSubsetSum"]}
{"id": "C40", "title": "VarOpt keeps the total weight, never errs and estimates without bias", "statement": "For every stream of positive weights (exact arithmetic) and all random outcomes no update returns an error; the sketch holds min(n,k) samples that are stream items, whose adjusted weights are positive and add up to the total presented weight; up to k items the samples are the stream.  Beyond that there is a threshold tau: samples either keep their own weight >= tau or are items of weight <= tau counted as tau.  EstimateSubsetSum succeeds for every predicate and its expected value over independent uniform draws is the true weight of the matching items.  Bad k and non-positive weights are refused; Reset gives a new sketch.  Code defect shown: in exact mode TotalSketchWeight is the weight of the matching items.", "quantifier": "every k, every stream of positive rational weights, every predicate and random outcome", "why_tests_cant": "Random outcomes and heap states; bias is invisible to tests of single runs.", "anchors": ["sampling/varopt_items_sketch.go: NewVarOptItemsSketch, Update, Reset, All, EstimateSubsetSum, growCandidateSet, downsampleCandidateSet, chooseDeleteSlot, heapify, transitionFromWarmup"]}
{"id": "C41", "title": "Bloom filter with 65535 hash functions never finishes an update", "statement": "The constructor accepts numHashes = 65535, but Update on such a filter does not terminate: the uint16 loop counter wraps around before exceeding the bound.", "quantifier": "every item and every amount of running time", "why_tests_cant": "A non-terminating call cannot be observed as an assertion in finite time.", "anchors": ["filters/bloom_filter.go: Update, internalUpdate", "filters/bloom_filter_builder.go"]}
{"id": "C42", "title": "Count-min boundary behaviour", "statement": "GetLowerBound may exceed the true weight when items collide (so it is not a lower bound); a sketch with zero hash functions is accepted and estimates every item as 2^63-1; 64 x 2^26 cells pass the size check because the product overflows int32, and the first update panics.", "quantifier": "every item, weight and hash family (existence of a collision for the first part)", "why_tests_cant": "The cases lie outside of the ranges tests use; the panic holds for every item and hash family.", "anchors": ["count/count_min_sketch.go: NewCountMinSketch, GetLowerBound, Update"]}
{"id": "C43", "title": "A wrapped sketch shows the decoded sketch", "statement": "Whenever bytes decode to a sketch, wrapping the same bytes yields a read-only sketch with the same theta, emptiness, seed hash and entry count, and iterating over it yields exactly the decoded entries in the same order.", "quantifier": "every byte string of every supported serial version, compressed or not", "why_tests_cant": "The wrapped iterator re-implements unpacking with a reused buffer; equality must hold for all byte strings.", "anchors": ["theta/wrapped_compact_sketch.go: WrapCompactSketch, All", "theta/decoder.go: Decode"]}
{"id": "C44", "title": "Decoding malformed theta bytes never panics", "statement": "Decode returns a sketch or an error for every byte string; it never panics.", "quantifier": "every byte string", "why_tests_cant": "Unbounded space of malformed inputs.", "anchors": ["theta/decoder.go: Decode, decodeVersion1..4"]}
{"id": "C45", "title": "Frequency sketch error stays below the a-priori error", "statement": "For sketches of maximum map size up to 1024, the reported maximum error never exceeds 3.5 / maxMapSize times the stream weight, for any stream in any order and any way of splitting it over merged sketches; for larger sizes it never exceeds streamWeight / 512.", "quantifier": "every stream, order, merge tree", "why_tests_cant": "Depends on every purge decreasing at least half of the sampled counters by the full median.", "anchors": ["frequencies/longs_sketch.go: GetMaximumError, GetAprioriErrorLongsSketch", "frequencies/reverse_purge_long_hash_map.go: purge"]}
{"id": "C46", "title": "Reservoir union keeps a fair sample", "statement": "For every sequence of single items and sketches (of any sizes, each fed by its own stream) the union never fails, its result counts all presented items, holds min(N,k) of them at distinct positions for some k<=maxK, and its subset-sum estimate has the true count over all streams as its expected value.  Code defects shown with witnesses: maxK<2 is accepted and panics, Reset on a fresh union panics, more than min(k1,k2) samples.", "quantifier": "every list of inputs, stream, size, predicate and random outcome", "why_tests_cant": "Random outcomes; merging bias is invisible to tests of single runs.", "anchors": ["sampling/reservoir_items_union.go: Update, UpdateSketch, createNewGadget, twoWayMergeInternal, Result, Reset", "sampling/reservoir_items_sketch.go: downsampledCopy"]}
{"id": "C47", "title": "VarOpt union keeps the total weight and estimates without bias", "statement": "For every list of VarOpt sketches, reservoir sketches and results of other unions, each made from its own stream, feeding them to a union and taking the result never fails; the result counts all items, has at most maxK samples, which are presented items, with weights adding up to the total presented weight, and its subset estimates have the true matching weight as their expected value.  Code defect shown with a witness: a result on which every Update returns an error.", "quantifier": "every list of inputs (nested unions included), every maxK, predicate and random outcome", "why_tests_cant": "Random outcomes; the choice of the coercion path depends on the taus of all inputs.", "anchors": ["sampling/varopt_items_union.go: NewVarOptItemsUnion, Update, UpdateReservoirItemsSketch, Result, simpleGadgetCoercer, markMovingGadgetCoercer, migrateMarkedItemsByDecreasingK", "sampling/varopt_items_sketch.go: decreaseKBy1, weightCorrRRegionSamples"]}
{"id": "C48", "title": "KLL ranks are unbiased with mean squared error O((n/k)^2)", "statement": "For every stream and every merge history the expected weight of the retained items with a given property is the number of presented items with it; the mean squared error of the rank of any item is at most 10.5 (n/k)^2, so the normalized rank error exceeds eps with probability at most 10.5/(eps k)^2 (k at most 32767, the smallest k involved).", "quantifier": "every program of creations, updates, merges, resets over any number of sketches, every item, every eps", "why_tests_cant": "A statement about the distribution over all coin sequences and all inputs.", "anchors": ["kll/items_sketch.go: updateItem, compressWhileUpdatingSketch, generalItemsCompress, mergeItemsSketch, levelCapacity"]}
{"id": "C49", "title": "REQ ranks are exact at the accurate end", "statement": "With high rank accuracy the normalized rank of a value is exactly the true rank whenever at most 3k items of the stream lie at or above it (at or below it in the other mode), for every stream, merge history and coin outcome; the extreme item of the accurate end is always among the retained items.", "quantifier": "every program of creations, updates, merges and resets over several sketches, every coin sequence, every value and criterion", "why_tests_cant": "All streams, merge trees and random outcomes; an error in the range chosen for compaction shows only for particular sizes.", "anchors": ["req/sketch.go: Update, Merge, Rank", "req/compactor.go: Compact, computeCompactionRange, ensureEnoughSections"]}
{"id": "C50", "title": "REQ rank and quantile bounds bracket the estimate", "statement": "RankLowerBound(r) <= r <= RankUpperBound(r), the interval grows with the number of standard deviations and is a point while the sketch holds every item; QuantileLowerBound <= Quantile <= QuantileUpperBound whenever both rank bounds lie in [0,1].  At the accurate end's opposite extreme the rank bound leaves [0,1] and the quantile bound is an error (shown).  Where at most 3k items of the stream lie on the accurate side of a value (k the smallest k of the sketches merged), Rank and both rank bounds for it are the true rank.", "quantifier": "every sketch reached by any program, every rank in [0,1], every number of standard deviations", "why_tests_cant": "Continuous parameter and all reachable sketches.", "anchors": ["req/sketch.go: RankLowerBound, RankUpperBound, QuantileLowerBound, QuantileUpperBound"]}
{"id": "C51", "title": "REQ estimates are unbiased without merging", "statement": "For a REQ sketch fed by updates (with queries and resets in between) the expectation over the coin flips of the weight of the retained items with any given property is exactly the number of items with this property that were presented; in particular the estimated rank of every value is unbiased.  After Merge this fails (shown): the flag that a coin was flipped is merged, the coin is not, so the next half is chosen deterministically.", "quantifier": "every program without merges, every property of items, every sketch of the program", "why_tests_cant": "An expectation over all coin flips of arbitrarily long runs; a test sees single outcomes.", "anchors": ["req/compactor.go: compact, merge", "req/sketch.go: Update, compress, All, Merge"]}
{"id": "C52", "title": "REQ relative error does not grow with the stream", "statement": "For a REQ sketch fed by updates (with queries and resets in between) the estimated number of items below a value (at or above it in the high rank accuracy mode) has a mean square error, over the coin flips, of at most 12/(k^2-12) times the square of the true number, whatever the length and order of the stream; hence the probability of a relative error of eps or more is at most 12/((k^2-12) eps^2).", "quantifier": "every program without merges, every value and criterion, every parameter k, every stream length below 2^47", "why_tests_cant": "A variance over all coin flips for streams of unbounded length; the schedule of sections to compact can be wrong in ways that leave every single estimate plausible.", "anchors": ["req/compactor.go: compact, computeCompactionRange, ensureEnoughSections", "req/sketch.go: Update, compress, All"]}
{"id": "C53", "title": "Tuple sketch: each retained hash carries the fold of its values", "statement": "After any history of updates, trims and resets of a tuple update sketch, the sketch retains exactly the hashes the theta sketch with the same parameters would retain, and the summary of each retained hash is a new summary updated with exactly the values presented for that hash since the last reset, in their order. No two hashes share a summary object and no object used elsewhere is changed.", "quantifier": "every history, hash function, summary type (by value or behind a pointer), new/update function, table size, resize factor and sampling probability", "why_tests_cant": "Summaries have to survive resizing, rebuilding at a lower theta and resets; a test checks a few histories and one summary type.", "anchors": ["tuple/update_sketch.go: UpdateInt64, Trim, Reset, update, All", "tuple/hashtable.go: Insert, resize, rebuild, trim, reset, Find"]}
{"id": "C54", "title": "Tuple compact form and filter are independent snapshots", "statement": "The compact form of a tuple sketch holds the same hashes with summaries of the same content in fresh objects; later updates of the sketch never change it. Filter keeps exactly the entries whose summary satisfies the predicate, with theta unchanged, as fresh copies, and is empty only if the source is exact and nothing is kept. (A compact sketch made from a theta sketch, by contrast, shares one summary object among all entries.)", "quantifier": "every history before and after, every predicate, ordered or not", "why_tests_cant": "Aliasing shows only in particular interleavings of later updates.", "anchors": ["tuple/compact_sketch.go: NewCompactSketch, Filter, NewCompactSketchFromThetaSketch", "tuple/update_sketch.go: Compact, Filter"]}
{"id": "C55", "title": "Tuple union merges the summaries of all inputs in order", "statement": "The result of a tuple union has theta, hashes and emptiness of the theta union, and the summary of each hash is the left-to-right merge of the summaries the inputs since the last reset hold for it, in update order, whatever the inputs' layouts - provided no two entries handed over share a summary object. The union does not clone: inputs and earlier results change (witnesses).", "quantifier": "every sequence of updates with valid sketches and resets, every summary type and merge function (not necessarily commutative), every size and sampling probability", "why_tests_cant": "Merging interacts with early stopping on ordered inputs, stale entries above theta, table rebuilds and the final cut to k; order and multiplicity of merges cannot be enumerated.", "anchors": ["tuple/union.go: Update, Result, Reset, OrderedResult"]}
{"id": "C56", "title": "Tuple intersection merges the summaries of all inputs in order", "statement": "The result of a tuple intersection has theta, hashes and emptiness of the theta intersection, and the summary of each hash is the left-to-right merge of the summaries of all inputs for it; the result's summaries are fresh objects. The summaries of the first input are changed by the intersection (witness).", "quantifier": "every non-empty sequence of valid inputs in every layout, every summary type and merge function", "why_tests_cant": "Matches are merged in one table and copied to another per input; losing or repeating a merge depends on the layout of several inputs.", "anchors": ["tuple/intersection.go: Update, Result"]}
{"id": "C57", "title": "Tuple A-not-B keeps the summaries of A", "statement": "The difference of a tuple sketch and a tuple or theta sketch has theta, hashes and emptiness of the theta difference; each kept hash carries a fresh copy of A's summary for it, and neither input changes.", "quantifier": "every pair of valid sketches in every layout, every summary type", "why_tests_cant": "Three algorithms are chosen by layout and size; sharing with A's summaries is invisible in the result itself.", "anchors": ["tuple/a_not_b.go: ANotB, TupleANotThetaB"]}
{"id": "C58", "title": "Tuple sketch serialization round trip", "statement": "Decoding the bytes of a compact tuple sketch with the same seed gives the same sketch (entries with summaries, theta, flags, seed hash) and consumes exactly those bytes; this holds for the compact form after every history. The decoder never panics and rejects every proper prefix of valid bytes.", "quantifier": "every compact sketch within the field widths, every summary writer/reader pair that round-trips, every history, every byte string", "why_tests_cant": "The layout depends on emptiness, estimation mode and the number of entries; user readers consume variable lengths.", "anchors": ["tuple/encoder.go: Encode", "tuple/decoder.go: Decode", "tuple/compact_sketch.go: preambleLongs, newCompactSketch"]}
{"id": "C59", "title": "Array-of-numbers sketch serialization round trip", "statement": "Decoding the bytes of a compact array-of-numbers sketch with the same seed gives the same sketch for every number type; the decoder never panics and rejects every proper prefix.", "quantifier": "every sketch within the field widths, every value size, every number of values, every byte string", "why_tests_cant": "Hashes and values are stored in separate sections whose lengths come from the header.", "anchors": ["tuple/arrayofnumbers_sketch_encoder.go: Encode", "tuple/arrayofnumbers_sketch_decoder.go: Decode"]}
{"id": "C60", "title": "Array-of-strings summaries: round trip and keys", "statement": "Up to 127 strings are read back as written and preceded by their exact size in bytes, more are refused; sketches of string arrays survive serialization and damaged bytes never panic. Lists of comma-free strings are hashed from different bytes if they differ (with commas they collide: witness).", "quantifier": "all lists of strings, all sketches, all byte strings", "why_tests_cant": "Arbitrary bytes and lengths; collisions need the right pair of inputs.", "anchors": ["tuple/arrayofstrings_sketch.go: ArrayOfStringsSummaryWriter, ArrayOfStringsSummaryReader, GenerateHashKeyFromStrings"]}
{"id": "C61", "title": "Array-of-numbers sketch sums the values per key", "statement": "After every history the summary of each retained hash holds n numbers, number i being the left-to-right sum of the i-th values presented for that hash since the last reset; a slice with fewer than n values panics once its key passes screening.", "quantifier": "every history, hash function, number type (machine integers, floats), n, table size, resize factor, sampling probability", "why_tests_cant": "Same as C53; the number of values and their order are unbounded.", "anchors": ["tuple/arrayofnumbers_update_sketch.go: UpdateInt64, UpdateInt32, UpdateString, UpdateBytes, Trim, Reset", "tuple/arrayofnumbers_sketch.go: Update, Reset"]}
{"id": "C62", "title": "CPC sketch content is the set of cells hit", "statement": "After any accepted stream the bit matrix of a CPC sketch has bit (row, column) set iff some item hashed to row h0 mod 2^lgK and column = leading zeros of h1 (at most 63); the number of coupons is the number of set bits and the sketch validates; order and repetition do not matter, a repeated item leaves the sketch exactly unchanged, and the result agrees with the package's reference BitMatrix.", "quantifier": "every lgK, seed, sequence of hashed items accepted by the sketch, through all internal modes and window positions", "why_tests_cant": "The compressed representation (sparse table, window, surprises before and behind it, window moves) depends on the whole history; tests sample few histories.", "anchors": ["cpc/cpc_sketch.go: hashUpdate, updateSparse, updateWindowed, modifyOffset, GetBitMatrix, validate", "cpc/pair_table.go: maybeInsert, maybeDelete", "cpc/bit_matrix.go: hashUpdate"]}
{"id": "C63", "title": "CPC updates succeed exactly while there is room", "statement": "For lgK <= 20 every stream hitting fewer than 25*2^lgK distinct cells is accepted without error. In general an item is accepted iff its cell was hit before, or the new number of cells is below 475/8*2^lgK and the surprising cells (missing before the window, present behind it) fit in a table of 2^min(26, lgK+6) slots at most three quarters full, before and after the window moves. There are streams of 512 hashes that a sketch with lgK = 4 does not accept.", "quantifier": "every lgK, seed, accepted stream and next item", "why_tests_cant": "The refusing streams need hash values with long runs of zeros; tests with a real hash function never meet them.", "anchors": ["cpc/cpc_sketch.go: hashUpdate, modifyOffset", "cpc/pair_table.go: maybeInsert, upsizeIfNeeded, rebuild"]}
{"id": "C64", "title": "CPC running estimate is unbiased", "statement": "Feeding n independent uniformly hashed items to a new sketch, the mean of the running (HIP) estimate lies between n(1-2^-52) and n for n up to 83/8*2^lgK and lgK <= 20; for one more item the mean grows by exactly 1 minus a correction due to hashes with 63 or 64 leading zeros; the estimate is never below the number of cells hit.", "quantifier": "every lgK up to 20, n, and (for the step) every accepted stream; mean over all pairs of 64-bit hash words", "why_tests_cant": "An expectation over 2^128 hash values per item is out of reach of testing.", "anchors": ["cpc/cpc_sketch.go: updateHIP, refreshKXP, GetEstimate", "cpc/utils.go: makeKxpByteLookup"]}
{"id": "C65", "title": "CPC union equals the sketch of all items", "statement": "After any sequence of union updates with sketches of any lgK made from streams with the same seed, the union's lgK is the smallest among its own and those of the non-empty sources, its bit matrix and number of coupons are those of one sketch of that lgK fed with all items, in whatever order and grouping; the result is a valid merged sketch with that content. Updates and result succeed if fewer than 25*2^lgK cells are hit at the end (lgK <= 20). Another seed is refused, empty sources change nothing.", "quantifier": "every union lgK, seed, list of streams with their lgK, order of updates", "why_tests_cant": "All combinations of source flavor, union state and reduction of lgK; the content of a union depends on the whole history.", "anchors": ["cpc/cpc_union.go: Update, GetResult, GetBitMatrix, reduceUnionK", "cpc/utils.go: walkTableUpdatingSketch, orMatrixIntoMatrix"]}
{"id": "C66", "title": "CPC copy, reset, flavor and window position", "statement": "A copy equals the sketch; a reset sketch equals a new one; the flavor (empty, sparse, hybrid, pinned, sliding), the presence of a window and its first column are determined by the number of cells hit at the documented thresholds.", "quantifier": "every lgK, seed, accepted stream", "why_tests_cant": "Thresholds must agree between update paths for all numbers of coupons.", "anchors": ["cpc/cpc_sketch.go: Copy, reset, getFlavor", "cpc/utils.go: determineFlavor, determineCorrectOffset"]}
{"id": "C67", "title": "CPC serialization round trip", "statement": "If ToCompactSlice returns bytes, NewCpcSketchFromSlice turns them into a sketch with the same lgK, number of coupons, merge flag, window position, first interesting column and bit matrix; the two estimator registers come back as their 64-bit floats; further updates of the restored sketch are accepted exactly when the original accepts them and lead to the same content and estimate. The same holds for the result of a union.", "quantifier": "every lgK, seed, accepted stream, union of any sketches, seed given to the reader, continuation stream", "why_tests_cant": "The image is bit-packed with 22 variable-length codes, unary fields, 56-entry permutations and eight layouts; a wrong entry or a lost bit shows only for particular windows.", "anchors": ["cpc/cpc_sketch.go: ToCompactSlice, NewCpcSketchFromSlice", "cpc/cpc_compressed_state.go: compress, uncompress, exportToMemory, importFromMemory, lowLevelCompressPairs, lowLevelUncompressPairs", "cpc/compression_data.go", "cpc/utils.go"]}
{"id": "C68", "title": "Every CPC sketch can be serialized", "statement": "ToCompactSlice succeeds on every sketch the library can build; it never panics.", "quantifier": "every lgK, seed, accepted stream", "why_tests_cant": "Whether the sort step finishes depends on the order in which the hash table happens to hold the values.", "anchors": ["cpc/cpc_sketch.go: ToCompactSlice", "cpc/pair_table.go: introspectiveInsertionSort, unwrap", "cpc/cpc_compressed_state.go: compress"]}
{"id": "C69", "title": "CPC reader refuses what is not a sketch", "statement": "NewCpcSketchFromSlice returns an error, and does not panic, on bytes that are not a compressed CPC sketch written with the given seed.", "quantifier": "every byte string, every seed", "why_tests_cant": "Bytes come from outside; the space of damaged inputs cannot be sampled.", "anchors": ["cpc/cpc_sketch.go: NewCpcSketchFromSlice", "cpc/utils.go: checkLoPreamble", "cpc/cpc_compressed_state.go: importFromMemory"]}
{"id": "C70", "title": "CPC wrapper agrees with the sketch", "statement": "The read-only wrapper of serialized bytes reports the same lgK, estimate and bounds as the sketch read from the bytes.", "quantifier": "every sketch from a stream or a union, every kappa", "why_tests_cant": "The wrapper reads fields directly by per-format offsets.", "anchors": ["cpc/cpc_wrapper.go", "cpc/utils.go: getHiFieldOffset, getNumCoupons, getHipAccum"]}
{"id": "C71", "title": "t-digest: exact weight, extremes and sum", "statement": "However a t-digest is built (updates, merges, also with itself, queries in between), its total weight is the number of values it was given, MinValue and MaxValue are exactly the smallest and the largest of them, and the stored means, weighted, add up to their sum. Update accepts every finite value and refuses NaN and infinities; Merge refuses only an empty digest and otherwise adds all its values.", "quantifier": "for all sequences of updates, merges and queries, all values, all k >= 10", "why_tests_cant": "the invariant has to hold through arbitrarily many compressions and merges in both directions; tests run a few streams", "anchors": ["tdigest/double.go: Update, Merge, compress, merge, TotalWeight, MinValue, MaxValue"]}
{"id": "C72", "title": "t-digest: Rank, CDF and PMF are a distribution", "statement": "Rank answers every value but NaN with a number in [0, 1], 0 below the minimum and 1 above the maximum, and is monotone in the value. CDF for strictly increasing split points is the list of ranks followed by 1, nondecreasing; PMF has nonnegative entries that add up to 1. Split points that are not strictly increasing, or NaN, are refused.", "quantifier": "for all digests built through the API, all values and all lists of split points", "why_tests_cant": "monotonicity across all pairs of values and all centroid layouts cannot be sampled; the interpolation has five different regions", "anchors": ["tdigest/double.go: Rank, CDF, PMF", "internal/quantiles/utils.go: ValidateSplitPoints"]}
{"id": "C73", "title": "t-digest: small streams are exact", "statement": "While three times the number of values is below twice k, nothing is approximated: the rank of a value of the stream is the fraction of smaller values plus half the fraction of equal values, any other rank is off by at most half a value, and Quantile(r) is element number floor(r n) of the sorted stream.", "quantifier": "for all k, all streams with 3n < 2k, all ways to split them over updates and merges, all ranks", "why_tests_cant": "depends on the size limit refusing every merge for every position and every weight", "anchors": ["tdigest/double.go: merge, Rank, Quantile, scaleFunction"]}
{"id": "C74", "title": "t-digest: Quantile stays in range, hits the extremes, and is monotone", "statement": "Quantile answers every rank in [0, 1] with a number between MinValue and MaxValue, gives the minimum for rank 0 and the maximum for rank 1, refuses other ranks, and is monotone in the rank.", "quantifier": "for all digests built through the API and all ranks", "why_tests_cant": "a violation needs centroids of weight above one and ranks around one of them; the repository's tests compare with loose tolerances", "anchors": ["tdigest/double.go: Quantile, weightedAverage"]}
{"id": "C75", "title": "t-digest: bounded size", "statement": "A t-digest that has received n values holds at most 2k + 4 ln n + 3 centroids when k <= 200 and at most 4k + 4 ln n + 3 for every k, and buffers at most 4 (2k + 30) values, however it was built.", "quantifier": "for all n, all values in all orders, all merges, all k below 2^16", "why_tests_cant": "the bound depends on the logarithmic scale function and on arbitrarily long streams", "anchors": ["tdigest/double.go: merge, NewDouble", "tdigest/double.go: scaleFunction, compareCentroids"]}
{"id": "C76", "title": "t-digest: serialization round trip", "statement": "EncodeDouble and the stream encoder produce the same bytes, exactly SerializedSizeBytes many, with or without the buffer; DecodeDouble and the stream decoder return from them a digest representing the same values with the same k, the identical one if it holds at least two values, and the stream decoder leaves what follows the image.", "quantifier": "for all digests built through the API whose numbers are float64 values, with and without buffer", "why_tests_cant": "round trips depend on every combination of flags, counts and the single-value form", "anchors": ["tdigest/double_encoder.go: Encode, EncodeDouble", "tdigest/double_decoder.go: Decode, DecodeDouble", "tdigest/double.go: SerializedSizeBytes"]}
{"id": "C77", "title": "t-digest: decoding arbitrary bytes never panics", "statement": "DecodeDouble answers every byte slice with a digest or an error and never panics; the stream decoder in addition reads no further than the image and refuses truncated images.", "quantifier": "for all byte slices", "why_tests_cant": "the dangerous inputs are a few lengths of a legacy format", "anchors": ["tdigest/double_decoder.go: DecodeDouble, decodeDoubleCompat, Decode"]}
{"id": "C78", "title": "Item serializers read back what they wrote", "statement": "A list of strings, int64, float64 or float32 values written by the item serializers is read back exactly, from any offset of any memory that contains the bytes, and the announced sizes are the sizes written; reading strings from arbitrary bytes never panics and only returns what is encoded there.", "quantifier": "for all lists of items, all surrounding bytes, all offsets", "why_tests_cant": "the offsets, contents and lengths form an unbounded space", "anchors": ["common/item_sketch_string.go: SizeOf, SizeOfMany, SerializeManyToSlice, DeserializeManyFromSlice", "common/item_sketch_long.go", "common/item_sketch_double.go", "common/item_sketch_float.go"]}
{"id": "C79", "title": "KLL: serialization round trip", "statement": "ToSlice of any KLL sketch that updates, merges and resets can produce yields exactly GetSerializedSizeBytes bytes, decoding them yields a sketch with the same parameters, count, extremes and the same items at the same levels, and serializing that gives the same bytes again.", "quantifier": "for all parameters, all runs, all random choices, all item types with a lawful serializer", "why_tests_cant": "the image depends on the whole history and on random choices; the boundary cases are in parameter ranges tests do not visit", "anchors": ["kll/items_sketch.go: ToSlice, NewKllItemsSketchFromSlice, GetSerializedSizeBytes", "kll/items_sketch_validate.go", "kll/preamble_utils.go"]}
{"id": "C80", "title": "Frequency sketches survive serialization", "statement": "A frequency sketch (of longs or of items) written with ToSlice and read back gives the same answers: maximum and current map capacity, stream weight, maximum error, number of counters, lower bound, upper bound and estimate of every item, and the rows of every frequent-items query. A sketch that goes on after being written and read back (updates, merges, resets, further writing and reading) still brackets the true weight of every item and keeps the a-priori error bound. GetStorageBytes of the long sketch is the number of bytes written.", "quantifier": "all sketches reachable by creation, updates, merges, resets and write/read cycles; all item types with a lawful serializer; all hash functions; all items, thresholds and error modes", "why_tests_cant": "The reader re-inserts the counters in slot order into a fresh table, so the slot layout, the purge sample and the probe chains of the new sketch differ; that all later answers stay right for every stream and every hash function cannot be sampled.", "anchors": ["frequencies/longs_sketch.go:LongsSketch.ToSlice", "frequencies/longs_sketch.go:NewLongsSketchFromSlice", "frequencies/items_sketch.go:ItemsSketch.ToSlice", "frequencies/items_sketch.go:NewFrequencyItemsSketchFromSlice", "frequencies/preamble_utils.go:insertPreLongs"]}
{"id": "C81", "title": "Reservoir sketches and unions survive serialization", "statement": "A reservoir sketch that has sampled a stream is written by ToSlice in 8 bytes (no items) or 16 bytes plus the sizes of its samples, and read back with the same k, n, resize factor and the same samples in the same order; given the same random numbers it then takes the same course as the original on every further stream. A union of items and sketches is written and read back with the same maxK, the same number of items seen, the same samples and, if it holds samples, the same k. The size code of the old format is monotone and lies between 1 and 2^31-1.", "quantifier": "all k from 2 to 2^32-1, resize factors 0..3, all streams and all lists of union inputs within the item limit, all random choices, all item types with a lawful serializer, all continuations", "why_tests_cant": "The image depends on the whole history and on random choices, and the union reader replays its image through the merge code; tests compare a few fixed sketches.", "anchors": ["sampling/reservoir_items_sketch.go: ToSlice, NewReservoirItemsSketchFromSlice", "sampling/reservoir_items_union.go: ToSlice, NewReservoirItemsUnionFromSlice", "sampling/reservoir_size.go: decodeReservoirSize"]}
{"id": "C82", "title": "VarOpt sketches and unions survive serialization", "statement": "A VarOpt sketch or union that is written and read back has the same k, number of items, resize factor, samples with weights and subset sums; while it is exact it is the same in every field. It can be used further: the sketch takes every update of positive weight, the union every sketch, and the result of a union can be written as well.", "quantifier": "all k from 1 to 2^31-2, all streams of positive weights, all lists of union inputs, all random choices, all item types with a lawful serializer, all conversions of numbers to bits that keep the numbers written", "why_tests_cant": "The image depends on the whole history and on random choices; the heap region, gap and reservoir region must be rebuilt so that later updates behave, which tests of fixed sketches do not exercise.", "anchors": ["sampling/varopt_items_sketch_encoder.go", "sampling/varopt_items_sketch_decoder.go", "sampling/varopt_items_union_encoder.go", "sampling/varopt_items_union_decoder.go"]}
{"id": "C83", "title": "HLL sketches and unions survive serialization", "statement": "For every lgK, type and stream, ToCompactSlice and ToUpdatableSlice succeed; the updatable image has GetUpdatableSerializationBytes bytes and the compact one the size given by the number of coupons or exceptions; NewHllSketchFromSlice (with or without checkRebuild) accepts the image and returns a sketch with the same parameters, mode, coupons or registers, and estimator state, which also behaves the same under every further stream of items. The same holds for a union written and read by NewUnionFromSlice.", "quantifier": "all lgK, types, streams of items, compact/updatable, checkRebuild on/off, continuations; all unions of items and sketches (register-mode ones with the union's lgK)", "why_tests_cant": "The image depends on mode, type, exception table layout and probing order; tests round-trip a few streams and compare estimates only.", "anchors": ["hll/to_slice_impl.go:toHllByteArr,toCouponSlice,insertHll,insertAux", "hll/hll_sketch.go:NewHllSketchFromSlice", "hll/coupon_list.go:deserializeCouponList", "hll/coupon_hash_set.go:deserializeCouponHashSet", "hll/aux_hash_map.go:deserializeAuxHashMap", "hll/union.go:NewUnionFromSlice,ToCompactSlice"]}
{"id": "C84", "title": "A byte slice given to NewHllSketchFromSlice is neither modified nor retained", "statement": "As its documentation says, the slice passed to NewHllSketchFromSlice is not modified and not retained: updating the sketch leaves the slice alone, and two sketches read from the same slice are independent.", "quantifier": "all register-mode sketches, all later items", "why_tests_cant": "Tests read a slice once and do not look at it afterwards.", "anchors": ["hll/hll_sketch.go:NewHllSketchFromSlice", "hll/hll_array.go:extractCommonHll"]}
{"id": "C85", "title": "Reading an arbitrary slice as an HLL sketch gives a sketch or an error", "statement": "NewHllSketchFromSlice and NewUnionFromSlice return an error, and do not panic, on every slice that is not an image of a sketch.", "quantifier": "all byte slices", "why_tests_cant": "The inputs are all byte strings; tests try a handful of corruptions.", "anchors": ["hll/hll_sketch.go:NewHllSketchFromSlice", "hll/utils.go:checkPreamble", "hll/union.go:NewUnionFromSlice"]}
{"id": "C86", "title": "Theta estimates are accurate", "statement": "Over random hashes (distinct items get distinct non-zero 63-bit hashes, all assignments equally likely), for every history of updates, trims and resets: the estimate corrected by theta/(theta-1) averages exactly to the number n of distinct items presented since the last reset, and the estimate itself to at most n. Without sampling and with n > k = 2^lgK, the relative bias is at most n/((k-1)(2^63-1)), the mean squared error at most n^2/(k-1) and the probability of a relative error of eps or more at most 1/((k-1)eps^2), both up to a factor 1+2n/(2^63-1). With n <= k the estimate is exact.", "quantifier": "every lgK, resize factor, starting theta above 32, history, and number of items; mean over all assignments of hashes", "why_tests_cant": "An average over all hash assignments of arbitrarily many items cannot be tested; a simulation sees a few streams.", "anchors": ["theta/update_sketch.go:Estimate", "theta/hashtable.go:rebuild", "theta/compact_sketch.go:Estimate"]}
{"id": "C87", "title": "Estimates of theta set expressions are accurate", "statement": "Every expression of update sketches, compact copies, unions of any number of inputs, intersections and differences evaluates without error, and over random hashes its estimate corrected by theta/(theta-1) averages exactly to the size of the set it stands for. Expressions of unsampled sketches, copies and unions, all of nominal size at least k, have the error bounds of one sketch of size k, and are exact up to k items.", "quantifier": "every finite set expression, every history at its leaves; mean over all assignments of hashes", "why_tests_cant": "Expressions are unbounded trees and the claim is an average over all hash assignments.", "anchors": ["theta/union.go:Result", "theta/intersection.go:Update", "theta/a_not_b.go:ANotB", "theta/compact_sketch.go:Estimate"]}
{"id": "C88", "title": "Count-min error guarantee", "statement": "For non-negative weights and independent uniform hash words per row, the estimate of an item exceeds its true weight by more than GetRelativeError() times the total weight with probability at most e^-d for d hash functions (up to a factor (1+buckets/2^64)^d for the modulus); a sketch configured with SuggestNumBuckets(eps) and SuggestNumHashes(confidence) errs by more than eps times the total weight with probability at most 1-confidence (same factor); in general, by t or more with probability at most (total(1/buckets+1/2^64)/t)^d.", "quantifier": "every stream of non-negative weights, item, number of rows and buckets; probability over all hash words", "why_tests_cant": "A probability over all hash functions for all streams; a test sees one seed.", "anchors": ["count/count_min_sketch.go:GetEstimate", "count/count_min_sketch.go:GetRelativeError", "count/utils.go:SuggestNumBuckets", "count/utils.go:SuggestNumHashes"]}
{"id": "C89", "title": "Hash functions are Murmur3 and lose nothing within a group", "statement": "The hash of a byte slice, and of a slice of 64-bit integers (as their little-endian bytes), is the published 128-bit Murmur3 of exactly the bytes in the given range. Two inputs of equal length that differ inside one 128-bit group only have different 128-bit hashes; so have any two different byte slices of at most eight bytes, any two different strings of at most four bytes, and any two different 64-bit integers.", "quantifier": "every input of every length, offset, seed", "why_tests_cant": "Inputs are unbounded, and absence of collisions within a group is a claim over 2^128 pairs", "anchors": ["internal/murmur3.go:HashByteArrMurmur3", "internal/murmur3.go:HashInt64SliceMurmur3", "internal/murmur3.go:HashCharSliceMurmur3"]}
{"id": "C90", "title": "Every element of an int32 slice is part of the item", "statement": "Updating with a slice of 32-bit integers distinguishes slices that differ in one position (128-bit hashes differ), in particular in CPC sketches.", "quantifier": "every slice, position, seed, sketch state", "why_tests_cant": "Which positions matter depends on the length modulo the group size; a test compares a few slices", "anchors": ["internal/murmur3.go:HashInt32SliceMurmur3", "cpc/cpc_sketch.go:UpdateInt32Slice"]}
{"id": "C91", "title": "Equal floating point numbers are one item", "statement": "Two float64 values are the same item exactly when they are the same number (all NaNs being one, and -0 equal to 0), in theta, tuple and CPC sketches and in Bloom filters, single or in arrays; a float32 is the same item as the float64 of equal value.", "quantifier": "all 2^64 bit patterns, all arrays", "why_tests_cant": "2^128 pairs of values; tests try a zero and a NaN", "anchors": ["theta/update_sketch.go:canonicalDouble", "tuple/update_sketch.go:canonicalDouble", "cpc/cpc_sketch.go:UpdateFloat64", "filters/bloom_filter.go:UpdateFloat64", "filters/bloom_filter.go:UpdateFloat64Array"]}
{"id": "C92", "title": "An integer is one item whatever method it is passed to", "statement": "In a theta or tuple sketch the same integer passed to UpdateInt64, UpdateUint64, UpdateInt32, UpdateUint32, UpdateInt16, UpdateUint16, UpdateInt8 or UpdateUint8 is the same item, an integer is the same item as its little-endian bytes, and a string as its bytes.", "quantifier": "every integer, every pair of methods, every sketch state", "why_tests_cant": "Pairs of methods and values are too many; existing tests use one method per sketch", "anchors": ["theta/update_sketch.go:UpdateInt32", "theta/update_sketch.go:UpdateInt64", "theta/update_sketch.go:UpdateUint32", "theta/hashtable.go:HashInt32AndScreen", "theta/hashtable.go:HashStringAndScreen"]}
{"id": "C93", "title": "Theta and tuple bounds bracket the estimate", "statement": "For a theta or tuple sketch (or a subset of a tuple sketch) and 1, 2 or 3 standard deviations, LowerBound and UpperBound return without error, the number counted is at most the lower bound, the lower bound at most the estimate, the estimate at most the upper bound, with equality in exact mode; more standard deviations never narrow the interval; other arguments are errors; with more than 120 samples the bounds are the ends of the continuity-corrected normal interval.", "quantifier": "every number of retained hashes, every theta in (0, 1], every number of standard deviations", "why_tests_cant": "The code has seven branches chosen by thresholds on theta and the count, two tables of 363 entries and two summation loops; a wrong row, threshold or sanity limit shows only for particular combinations of count and theta.", "anchors": ["internal/binomialbounds/binomialbounds.go:LowerBound", "internal/binomialbounds/binomialbounds.go:UpperBound", "internal/binomialbounds/binomialbounds.go:contClassicLB", "theta/update_sketch.go:LowerBound", "theta/compact_sketch.go:UpperBound", "theta/wrapped_compact_sketch.go:LowerBound", "tuple/compact_sketch.go:LowerBoundFromSubset"]}
{"id": "C94", "title": "Bounds for few samples are exact binomial bounds", "statement": "When up to 120 hashes are retained and theta is at least a 360th of their number, LowerBound is the largest population for which so many samples or more would have at most the tail probability of the given number of standard deviations, UpperBound the smallest population for which so many or fewer would; so if every item is sampled independently with probability theta, the probability that such a count occurs and the true number lies above (below) the bounds is at most that tail probability.", "quantifier": "every population size, every theta in (0, 1], every number of standard deviations", "why_tests_cant": "Coverage is a probability over all samples for each of infinitely many population sizes; tests compare a few computed values.", "anchors": ["internal/binomialbounds/binomialbounds.go:specialNStar", "internal/binomialbounds/binomialbounds.go:specialNPrimeB", "internal/binomialbounds/binomialbounds.go:specialNPrimeF", "internal/binomialbounds/binomialbounds.go:computeApproxBinomialLowerBound", "internal/binomialbounds/binomialbounds.go:computeApproxBinomialUpperBound"]}
{"id": "C95", "title": "Bounds of subset sums bracket the estimate", "statement": "For reservoir and VarOpt sketches and for results of their unions, EstimateSubsetSum returns for every predicate and whatever the random outcomes without error: 0 <= LowerBound <= Estimate <= UpperBound <= weight of the stream, where Estimate is the unbiased estimate; while everything is kept all three are the true value; LowerBound of a predicate plus UpperBound of its negation is the weight of the stream.  The bounds on a proportion behind them are defined for every k <= n, refuse k > n, lie in [0, 1] around k/n for up to two standard deviations, and are the Clopper-Pearson bounds in the special cases (one success, no success, no failure, one failure).", "quantifier": "every k, stream, predicate, random outcome, union of sketches; every n, k and number of standard deviations in [0, 2] for the proportion", "why_tests_cant": "The bounds come from an asymptotic formula with square root and exponential and from five special cases; that it never crosses the estimate is a statement on all counts, sampling rates and weights.", "anchors": ["sampling/reservoir_items_sketch.go: EstimateSubsetSum", "sampling/varopt_items_sketch.go: EstimateSubsetSum", "sampling/utils.go: pseudoHypergeometricUpperBoundOnP, pseudoHypergeometricLowerBoundOnP", "internal/binomialproportionsbounds/binomialproportionsbounds.go: ApproximateLowerBoundOnP, ApproximateUpperBoundOnP"]}
{"id": "C96", "title": "Jaccard index of theta sketches", "statement": "For any two theta sketches of the expected seed with at most 2^26 hashes together (update or compact, any size, any sampling): Jaccard succeeds and 0 <= LowerBound <= Estimate <= UpperBound <= 1; it is symmetric; sketches with the same theta and hashes, the same object twice and two empty sketches have index 1 with certainty, an empty and a non-empty one have index 0; otherwise the estimate is the number of hashes below the common theta in both sketches over the number in either one, with equal bounds if both sketches are exact (then it is the index of the two sets of items) and otherwise with the bounds on a proportion for that sampled fraction.  IsExactlyEqual holds if and only if theta and hashes agree.  IsSimilar (IsDissimilar) compares the lower (upper) bound with the threshold.  A non-empty sketch of another seed is refused.", "quantifier": "all pairs of valid sketches, seeds and thresholds; all streams for the exact case", "why_tests_cant": "The result goes through a union of a size computed from the counts and a three-way intersection; that no union ever cuts off hashes and that the bounds never cross is a statement on all sizes.", "anchors": ["theta/jaccard_similarity.go: Jaccard, IsExactlyEqual, IsSimilar, IsDissimilar, computeUnion, identicalSets", "theta/bounds_on_ratios_in_sketched_sets.go: lowerBoundForBOverAInSketchedSets, upperBoundForBOverAInSketchedSets, estimateOfBOverAInSketchedSets", "theta/bounds_on_ratios_in_sampled_sets.go: lowerBoundForBOverA, upperBoundForBOverA, hackyAdjuster"]}
{"id": "C97", "title": "Jaccard index of tuple sketches", "statement": "For any two tuple sketches of the expected seed with at most 2^26 hashes together, whatever their summaries and whatever the policy: Jaccard, IsExactlyEqual, IsSimilar and IsDissimilar return what they return for the theta sketches of the same hashes (property C96): bounds in [0, 1] around the estimate, symmetric, 1 with certainty for equal hashes and theta, exact for exact sketches; equality does not look at the summaries.  (That the sketches compared stay as they are is not part of this: with summaries behind pointers it is false.)", "quantifier": "all pairs of valid sketches, summaries by value and behind pointers, policies, seeds and thresholds", "why_tests_cant": "The comparison merges summaries in a union and an intersection; that neither the summaries nor the policy influence the result is a statement on all of them.", "anchors": ["tuple/jaccard_similarity.go: Jaccard, IsExactlyEqual, IsSimilar, IsDissimilar, computeUnion, identicalSets", "tuple/bounds_on_ratios_in_sketched_sets.go: lowerBoundForBOverAInSketchedSets", "tuple/bounds_on_ratios_in_sampled_sets.go: lowerBoundForBOverA"]}
{"id": "C98", "title": "Text form of the long frequency sketch", "statement": "Writing a long frequency sketch to its text form and reading the text back gives a sketch with the same answers: same maximum map size, stream weight, maximum error, number of counters, and for every item the same estimate and bounds, and the same frequent items; this also holds for a sketch whose last purge removed all counters. Through any history of updates, merges, resets and text round trips the bounds bracket the true weight of every item. Reading an arbitrary text ends with a sketch or an error and never panics, and a sketch read from a text that announces at least 8 slots answers every query.", "quantifier": "All histories of a long sketch including text round trips, all int64 items, all hash functions, all texts.", "why_tests_cant": "A test writes and reads a few sketches; it does not reach every map layout after purges, the negative items that the reader cannot parse, or texts that announce tiny maps.", "anchors": ["frequencies/longs_sketch.go:NewLongsSketchFromString", "frequencies/longs_sketch.go:ToString", "frequencies/reverse_purge_long_hash_map.go:serializeToString", "frequencies/reverse_purge_long_hash_map.go:deserializeFromStringArray"]}
{"id": "C99", "title": "The HLL estimate of a stream is unbiased", "statement": "In a sketch filled by updates only, the estimate of the distinct items is right on average: while the sketch still keeps the distinct hash codes (coupons) the estimate lies between their number n and 1.001 n; once it has registers, one more item with a uniformly random 128-bit hash raises the mean of the estimate by exactly 1, less a term that vanishes unless some register already holds the largest value 63; n random items raise the mean by n up to n(n-1)/2^63. The estimate is never below the number of slots hit, and is the same for the three register widths. (Exact arithmetic instead of float64.)", "quantifier": "All register sizes lgK 4..21, all streams of 128-bit hashes, the mean over all pairs of 64-bit words of the next items.", "why_tests_cant": "Tests compare the estimate of one or a few streams with a tolerance of several standard errors; a bias of some percent or one present only in some states passes. The mean over all hashes cannot be computed by running.", "anchors": ["hll/hll_array.go:hipAndKxQIncrementalUpdate", "hll/hll_array.go:GetEstimate", "hll/coupon.go:getEstimate", "hll/cubic_interpolation.go:usingXAndYTables", "hll/hll_8array.go:couponUpdate", "hll/coupon_list.go:promoteListToHll"]}
{"id": "C100", "title": "Bounds and composite estimate of HLL sketches", "statement": "For every HLL sketch filled by updates and for 1 to 3 standard deviations: lower bound, estimate and upper bound exist and are ordered, the lower bound is at least the number of slots hit, and more standard deviations give a wider interval; any other number of standard deviations is an error. The composite estimate never fails, is not negative, and depends on the items only - not on their order, the register width, or whether the sketch comes from one stream, a copy or a union. The order of the bounds also holds for results of unions.", "quantifier": "All lgK 4..21, register widths, streams, unions of sketches; deviations 1, 2, 3 and all other integers.", "why_tests_cant": "Tests check some streams; the interpolation has 18 tables of 257 points and any of the 4608 intervals may contain an overshoot; bounds that cross the estimate appear only for some register contents.", "anchors": ["hll/hll_estimator.go:hllCompositeEstimate", "hll/hll_estimator.go:hllUpperBound", "hll/hll_estimator.go:hllLowerBound", "hll/cubic_interpolation.go:usingXArrAndYStride", "hll/relative_error_tables.go:getRelErrKLT12", "hll/harmonic_numbers.go:harmonicNumber", "hll/coupon.go:getUpperBound"]}
{"id": "C101", "title": "CPC: the estimate of a merged sketch exists, is at least the number of coupons and grows with it", "statement": "For every sketch size from lgK 4 to 26 and every number of coupons, the estimate given for the result of a union is defined (no index error in the coefficient table), is at least the number of coupons, equals it for 0 and 1, and is strictly increasing in the number of coupons, also across the switch from the polynomial to the exponential formula. Hence adding sketches with the same lgK to a union never lowers its estimate, and leaves it unchanged only if no new coupon was collected.", "quantifier": "all lgK 4..26, all numbers of coupons (no bound), all unions of sketches of streams", "why_tests_cant": "The estimate comes from 23 polynomials of degree 19 with literal coefficients and a switch to another formula; tests evaluate single points, monotonicity is a statement about every pair of consecutive counts up to 2^32 for 23 tables", "anchors": ["cpc/icon_estimator.go", "cpc/icon_polynomial_coefficient.go", "cpc/cpc_sketch.go:GetEstimate"]}
{"id": "C102", "title": "CPC: lower bound, estimate and upper bound are ordered, for streams and unions", "statement": "For a sketch fed by a stream and for the result of a union, and for 1, 2 or 3 standard deviations: number of coupons <= lower bound <= estimate <= upper bound; more standard deviations give bounds that are no narrower; an empty sketch has all three equal to 0. Other values of the argument are not rejected: they may panic or give an upper bound below the lower bound.", "quantifier": "all lgK, all streams and unions (of up to 83/8 resp. 475/8 coupons per row), all pairs of deviations in 1..3", "why_tests_cant": "The error factors are literal tables, one entry per size and deviation, used only up to lgK 14; ordering must hold for every table entry, every content and every estimate", "anchors": ["cpc/confidence.go", "cpc/cpc_sketch.go:GetLowerBound", "cpc/cpc_sketch.go:GetUpperBound"]}
{"id": "C103", "title": "CPC: the estimate of merged sketches inverts the expected number of coupons", "statement": "The estimate of a merged CPC sketch that has collected c coupons is, up to 1/64 (1/32 for lgK 5, 1/16 for lgK 4), the number of random items of which one expects c coupons: of (1+tol) times the estimate or more items one expects at least c coupons, of (1-tol) times the estimate or fewer at most c. The expectation is over all sequences of 128-bit hashes, taken exactly.", "quantifier": "For every lgK 4..26, every number of coupons up to 40 k, every number of items; for every union of sketches built from any items.", "why_tests_cant": "The estimate comes from 23 polynomials with 460 fitted coefficients and an exponential formula; tests sample a few counts with simulated noise, so a typo that bends one polynomial between samples, or the seam between the formulas, stays unseen; the expected number itself is an average over 2^(128 n) streams.", "anchors": ["cpc/icon_estimator.go:iconEstimate", "cpc/icon_estimator.go:iconExponentialApproximation", "cpc/cpc_sketch.go:GetEstimate"]}
{"id": "C104", "title": "KLL: iterating over a sketch sees every retained item once with its weight", "statement": "The loop over the iterator of a KLL sketch ends without panic and sees exactly the retained items, each once, with weight 2^level; the weights add up to the number of items presented, the number of rounds is GetNumRetained, and every item seen was presented. The iterator of the sorted view sees the retained items in order with positive weights that agree with the sketch for every set of items, and its natural and normalized ranks are the accumulated weights.", "quantifier": "For every program of creations, updates, merges and resets with admissible parameters, every outcome of the coin, every sketch of the program.", "why_tests_cant": "Empty levels in the middle, an empty level zero and the empty sketch arise only for particular stream lengths, merges and coin tosses; tests look at the sum of weights for a few streams.", "anchors": ["kll/items_sketch_iterator.go:Next", "kll/items_sketch_iterator.go:GetWeight", "kll/items_sketch_sorted_view_iterator.go:GetNaturalRank", "kll/items_sketch_sorted_view_iterator.go:GetWeight", "kll/items_sketch.go:GetIterator"]}
{"id": "C105", "title": "Bloom filters sized by accuracy keep their target", "statement": "A filter built for n items and a target false positive probability p has the textbook false positive rate of at most p while at most n distinct items are in it, uses between 1 and 1075 hash functions, has the seed asked for and the size of the formula rounded up to whole words; arguments out of range and sizes above the limit are refused.", "quantifier": "every number of items from 1 to 2^53, every target in (0,1) a float64 can hold, every seed, every number of items inserted up to n", "why_tests_cant": "The rate depends on two rounded parameters over a continuum of targets; tests check a few targets with wide tolerance, and an empirical rate has sampling noise.", "anchors": ["filters/bloom_filter_builder.go:NewBloomFilterByAccuracy", "filters/bloom_filter_builder.go:SuggestNumFilterBits", "filters/bloom_filter_builder.go:SuggestNumHashes", "filters/bloom_filter_builder.go:SuggestNumHashesFromSize", "filters/bloom_filter_builder.go:NewBloomFilterWithDefault"]}
{"id": "C106", "title": "Set operations on sketches of number arrays", "statement": "A union or intersection of array-of-numbers sketches refuses exactly the sketches with another number of values per key (a union ignores empty ones), and a refused sketch leaves no trace; the result has the hashes of the set operation, the configured number of values, and for every key the arrays of the inputs merged in order (with the adding policy: the sums, position by position). A difference keeps the arrays of its first argument.", "quantifier": "every sequence of updates and resets with sketches of any number of values, every policy, every number type", "why_tests_cant": "Which keys survive depends on all inputs together; tests use a few sketches with matching arrays.", "anchors": ["tuple/arrayofnumbers_union.go:Update", "tuple/arrayofnumbers_intersection.go:Update", "tuple/arrayofnumbers_a_not_b.go:ArrayOfNumbersSketchANotB"]}
{"id": "C107", "title": "Iterating over the sorted view of a REQ sketch", "statement": "The loop over the iterator of the sorted view ends and sees the retained items and the extremes of the stream in order, the minimum first and the maximum last, with weights that are not negative and add up to the number of items presented; the weights agree with Rank; the ranks at each position are the weights seen so far, divided by n for the normalized ones; before the first and after the last position every getter returns an error.", "quantifier": "every program of updates and merges, every outcome of the coin flips", "why_tests_cant": "The retained items depend on coin flips and on the whole stream.", "anchors": ["common/quantiles/numeric_sorted_view_iterator.go", "common/quantiles/numeric_sorted_view.go:Iterator", "req/sketch.go:SortedView"]}
{"id": "C108", "title": "KLL partition boundaries: exact ends, ascending, close to equal sizes", "statement": "For every KLL items sketch reached by creations, updates, merges and resets that is not empty, and every positive number p of partitions, GetPartitionBoundaries returns p+1 boundaries in ascending order; the first is exactly the smallest item of the stream and the last exactly the largest; boundary j stands at the rank j/p of the sketch up to twice the weight of an item of the highest level. Asking again, with any other number of partitions or criterion, gives what a fresh sketch would give. Empty sketches and zero partitions are errors, never panics.", "quantifier": "all programs of creations, updates, merges and resets over any number of sketches, all coin tosses, all numbers of partitions, both criteria, all linearly ordered item types", "why_tests_cant": "The call overwrites both ends of the cached arrays before it searches them; that the arrays stay sorted, that a sketch of two or more items always retains two of them (otherwise the minimum would be overwritten by the maximum), and that the interior boundaries stay close for every number of partitions depends on every reachable state.", "anchors": ["kll/items_sketch.go:GetPartitionBoundaries", "kll/items_sketch_sorted_view.go:GetPartitionBoundaries", "kll/items_sketch_partition_boundaries.go:newItemsSketchPartitionBoundaries", "kll/utils.go:evenlySpacedDoubles"]}
{"id": "C109", "title": "Theta: the advertised maximum serialized size is enough", "statement": "The number that MaxSerializedSizeBytes returns for a nominal size is at least the number of bytes of the serialized form, compressed or not, of every compact sketch made from an update sketch of that nominal size.", "quantifier": "all hash functions, nominal sizes, resize factors, sampling probabilities, histories of updates, trims and resets, ordered and unordered compact forms, both encodings", "why_tests_cant": "The bound depends on the largest number of hashes a sketch can hold at any moment and, for the compressed form, on the widest difference of neighbouring hashes; a test sees one size. The declared result type is an unsigned 8 bit number, which only shows when the returned number is compared with real images.", "anchors": ["theta/compact_sketch.go:MaxSerializedSizeBytes", "theta/compact_sketch.go:SerializedSizeBytes", "theta/hashtable.go:computeCapacity", "theta/encoder.go"]}
{"id": "C110", "title": "VarOpt: the advertised serialized size is the size written", "statement": "For every VarOpt sketch made from a stream of positive weights, the encoder succeeds and writes exactly as many bytes as SerializedSizeBytes says for the same serializer, for fixed-width and string items, empty, in warm-up and in sampling mode.", "quantifier": "all values of k, all streams, all outcomes of the random generator, all lawful item serializers", "why_tests_cant": "The size is computed by other code than the one that writes; they agree only if the regions of heavy and light items, the gap between them and the number of samples fit together in every reachable state.", "anchors": ["sampling/varopt_items_sketch.go:SerializedSizeBytes", "sampling/varopt_items_sketch_encoder.go:Encode"]}
{"id": "C111", "title": "Frequency sketch of floating point items brackets the true count", "statement": "After any stream of float64 items, for every item the lower bound is at most, and the upper bound at least, the number of times an item equal to it was put in; equal means Go's ==, or being the same NaN.", "quantifier": "every stream of float64 items, including NaNs and both zeros, every map size", "why_tests_cant": "Test streams hold ordinary numbers; the claim fails only where comparison and hash disagree", "anchors": ["common/item_sketch_double.go:Hash", "frequencies/reverse_purge_item_hash_map.go:get", "frequencies/reverse_purge_item_hash_map.go:adjustOrPutValue", "frequencies/reverse_purge_item_hash_map.go:hashProbe", "frequencies/items_sketch.go:GetUpperBound"]}
{"id": "C112", "title": "Sums and filtered counts estimated from a tuple sketch are right on average", "statement": "For every tuple sketch, sampling probability and history of updates, trims and resets, and for every number read off a summary: over random hashes, the sum of that number over the retained entries divided by Theta(), times theta/(theta-1), averages exactly to the sum of that number over all items presented since the last reset. For every condition on the summary, the Estimate() of Filter(condition), with the same correction, averages exactly to the number of items whose summary satisfies the condition, and without it to at most that number and at least 32/33 of it. Without sampling and with n > k items, the mean squared error of the corrected sum is at most (n-k)/(k-1) times the sum of the squares, up to a relative error of about 2^-63.", "quantifier": "for all configurations, summary types, update rules, histories, functions of the summary and conditions; the mean is over all assignments of distinct hashes to the items", "why_tests_cant": "A test sees one hash function and a few streams; a bias or the size of the error is a statement about the average over all hash assignments", "anchors": ["tuple/update_sketch.go:Estimate", "tuple/update_sketch.go:Filter", "tuple/compact_sketch.go:Estimate", "tuple/compact_sketch.go:Filter", "tuple/update_sketch.go:All"]}
{"id": "C113", "title": "Array queries of quantile sketches answer like the single queries", "statement": "For every KLL or REQ sketch that is not empty and every array: GetRanks/Ranks and GetQuantiles/Quantiles return at every position exactly what the single query returns there, leave the sketch as the single query leaves it, give ascending answers for ascending arguments, and fail if one of the ranks is outside of [0, 1], with the error the single query gives for it; on an empty sketch both kinds fail.", "quantifier": "for all programs of creations, updates and merges, all arrays, both search criteria, whatever the random bits are, whether or not the sorted view has been built before", "why_tests_cant": "The array methods have their own loops and their own order of checks and view construction; tests compare them on a few sketches", "anchors": ["kll/items_sketch.go:GetRanks", "kll/items_sketch.go:GetQuantiles", "req/sketch.go:Ranks", "req/sketch.go:Quantiles"]}
{"id": "C114", "title": "t-digest: stream and slice decoders agree", "statement": "The two ways of reading a serialized t-digest, from a stream and from a byte slice, are interchangeable: on the same bytes one gives a digest exactly when the other does, and then it is the same digest, for the current format and for both formats of the reference implementation.", "quantifier": "every byte sequence, every digest", "why_tests_cant": "The decoders are two separate implementations with separate checks; tests compare them on a few stored images, not on arbitrary bytes.", "anchors": ["tdigest/double_decoder.go:Decode", "tdigest/double_decoder.go:decodeCompat", "tdigest/double_decoder.go:DecodeDouble", "tdigest/double_decoder.go:decodeDoubleCompat"]}
{"id": "C115", "title": "Bloom filter: false positives are limited by the set bits", "statement": "For an item that has nothing to do with what was inserted (a uniformly random pair of hashes), a filter with at least two hash functions answers that it may be present with probability at most the square of the fraction of set bits reported by BitsUsed and Capacity (up to 2^-25); with one or two hash functions the probability is the fraction or its square. After n insertions with k hash functions at most n*k bits are set.", "quantifier": "every filter reachable by any history of operations; every set of inserted items", "why_tests_cant": "A test can only sample a few items on a few filters; the bound counts all 2^128 pairs of hashes of every reachable filter.", "anchors": ["filters/bloom_filter.go:getHashIndex", "filters/bloom_filter.go:internalQuery", "filters/bloom_filter.go:internalUpdate"]}
{"id": "C116", "title": "Reservoir estimates have the spread of sampling without replacement", "statement": "For a reservoir sketch of k samples that was given n non-nil items, of which c match a predicate, the error of EstimateSubsetSum is zero on every run when n <= k; when n > k its mean square over the random draws is exactly c(n-c)(n-k)/(k(n-1)), the variance of k draws out of n without replacement, hence never above n^2/(4k).", "quantifier": "for every k >= 2, every stream (repeated items allowed, up to 2^48-1 items), every predicate; average over the uniform independent draws of Update", "why_tests_cant": "A test sees single runs; a sampler that returned the same number of samples with the right inclusion probability but correlated choices (e.g. replacing neighbouring slots together) would pass tests of the mean and still give useless error.", "anchors": ["sampling/reservoir_items_sketch.go:Update", "sampling/reservoir_items_sketch.go:EstimateSubsetSum"]}
{"id": "C117", "title": "VarOpt sampling: the spread of subset estimates, the threshold and the inclusion of each item", "statement": "After more than k items of positive weight the threshold tau of a VarOpt sketch is the one number with sum of min(w, tau) over the stream = k tau, whatever the random generator returns.  Every item heavier than tau is in the sample and keeps its own weight.  An item that occurs once, with weight w, is in the sample with probability min(1, w / tau).  The mean square of the error of EstimateSubsetSum, for any predicate, is at most the sum of w (tau - w) over the matching items lighter than tau; so the error is d or more with probability at most that sum over d squared.", "quantifier": "every k, every stream of more than k positive rational weights, every predicate; averages over independent uniform draws", "why_tests_cant": "A mean square error is a property of the distribution of the outcome of the random choices; a test sees single outcomes, on a few streams.", "anchors": ["sampling/varopt_items_sketch.go: Update, All, EstimateSubsetSum, growCandidateSet, downsampleCandidateSet, chooseDeleteSlot, chooseWeightedDeleteSlot, updateLight, updateHeavyGeneral"]}
{"id": "C118", "title": "Theta sketches written by old versions of the library are read back", "statement": "A compact theta sketch written in serial version 1, or in any of the three forms of serial version 2, decodes (also when followed by other bytes) to a sketch with the hashes, in the same order, and the theta of the image, ordered; it is empty exactly if it holds no hashes and its theta is the maximum, so a sampled-out sketch without hashes is not taken for empty.  A version 1 sketch gets the seed hash of the decoder; a version 2 image made with another seed is refused, and an image cut short of the hashes it announces is refused.", "quantifier": "every list of fewer than 2^32 hashes, every theta, every seed hash, every value of the bytes that are not read", "why_tests_cant": "The library cannot write these versions, so tests have only a few recorded images, none of them without hashes and with theta below the maximum.", "anchors": ["theta/decoder.go: Decode, decodeVersion1, decodeVersion2, validateMemorySize", "theta/utils.go: CheckSeedHashEqual"]}
{"id": "C119", "title": "VarOpt sketches and unions: the sampled weights bound the error", "statement": "For a VarOpt sketch, and for the result of a union of VarOpt sketches (results of other unions among them) and reservoirs, the squares of the listed weights of the matching samples add up, on average, to at least the mean square of the error of EstimateSubsetSum plus the squares of the true weights of the matching items.  So the sum of the squares of the listed weights is a conservative estimate of the squared error that a user can compute from the result alone; divided by d\u00b2 its mean bounds the probability of being off by d or more.", "quantifier": "every stream of positive weights, every predicate, every k, every sequence of inputs of a union and its maximum k, nested to any depth", "why_tests_cant": "It is a statement about averages over all draws of the generator, for unions over all interleavings of inputs in exact and in estimation mode; tests fix a few streams and cannot see a mean.", "anchors": ["sampling/varopt_items_sketch.go: Update, EstimateSubsetSum, All, decreaseKBy1", "sampling/varopt_items_union.go: Update, UpdateReservoirItemsSketch, Result"]}
{"id": "C120", "title": "Bloom filter: which calls concern the same item", "statement": "An integer is the same item as its eight little-endian bytes and as the array holding only it; arrays are the item given by the bytes of their elements; non-empty strings are the item given by their bytes; empty strings and arrays change nothing and are never found. Two different integers never have the same hash values, for any seed. Two float64 values are one item exactly when they are the same number (all NaNs one number, both zeros zero). The hash of an integer is the published xxHash64 of its bytes.", "quantifier": "for every filter, seed, integer, float64 bit pattern, array and string", "why_tests_cant": "there are 2^64 integers and 2^64 seeds; tests compare a few values with recorded hashes", "anchors": ["filters/bloom_filter.go: hashLongOptimized, computeHashes, computeHashesForLong, UpdateInt64, UpdateFloat64, UpdateString, UpdateSlice, UpdateInt64Array, UpdateFloat64Array"]}
{"id": "C121", "title": "Reservoir union: raw states", "statement": "Giving a union the state of a sketch (items seen, k, samples) with UpdateFromRaw has the effect of UpdateSketch with that sketch: any mix of items, sketches and states gives a result whose N is the number of all items they stand for, with min(N,k) samples taken from them and an unbiased subset estimate, also when the states are those of sampled streams. Inconsistent states are refused with an error.", "quantifier": "for every union, every sequence of calls, every state, k, maxK, predicate and all random choices", "why_tests_cant": "the randomness of the merges and the states reachable through other processes cannot be enumerated", "anchors": ["sampling/reservoir_items_union.go: UpdateFromRaw", "sampling/reservoir_items_sketch.go: newReservoirItemsSketchFromStates"]}
{"id": "C122", "title": "KLL: the announced rank error", "statement": "GetNormalizedRankError is a number strictly between 0 and 1 (below 5/8), larger for PMF queries than for the others, and strictly smaller for a larger k. It is never smaller than what the k of the sketch gives and never larger than what the smallest k of all sketches involved gives. Update leaves it alone. After Merge it is the larger of the two errors if the other sketch was in estimation mode, and unchanged if the other sketch was exact; a sketch that has been given more than k items is in estimation mode. A sketch of numbers with at least two items that is serialized and read back announces the same error. After Reset it is that of a new sketch with the same k.", "quantifier": "for every program of creations, updates, merges and resets over any number of sketches, every stream, every outcome of the coin flips, every k from 8 to 65535 and m from 2 to k", "why_tests_cant": "the statement ranges over all programs, all values of k and all outcomes of the random choices; the unit tests compare the error of a few sketches", "anchors": ["kll/items_sketch.go: ItemsSketch.GetNormalizedRankError, Merge, Update, Reset", "kll/utils.go: getNormalizedRankError", "kll/items_sketch.go: ItemsSketch.ToSlice, NewKllItemsSketchFromSlice"]}
