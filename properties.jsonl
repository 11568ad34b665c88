{"id": "C01", "title": "Two agreeing copies always win the vote", "statement": "Every EnhancedVoting strategy (standardVote, bitLevelVote, wordErrorVote, burstErrorVote, fastBitCorrection, adaptiveVote with any FaultPattern, weightedVote) returns x whenever at least two of its three arguments are x, whatever the third argument holds.", "quantifier": "every value x, every corrupted third value, every position of the corrupted copy, every fault pattern argument, every weight triple, every operand width", "why_tests_cant": "there are 2^64 values and 2^64 corruptions per position; a unit test samples a handful", "anchors": ["include/rad_ml/core/redundancy/enhanced_voting.hpp:standardVote", "include/rad_ml/core/redundancy/enhanced_voting.hpp:bitLevelVote", "include/rad_ml/core/redundancy/enhanced_voting.hpp:wordErrorVote", "include/rad_ml/core/redundancy/enhanced_voting.hpp:burstErrorVote", "include/rad_ml/core/redundancy/enhanced_voting.hpp:adaptiveVote", "include/rad_ml/core/redundancy/enhanced_voting.hpp:fastBitCorrection", "include/rad_ml/core/redundancy/enhanced_voting.hpp:weightedVote"]}
{"id": "C02", "title": "bitLevelVote is the per-bit majority", "statement": "Each bit of bitLevelVote(a,b,c) is the majority of the three corresponding input bits; hence if the copies of a value are corrupted so that no bit position is flipped in more than one copy, the vote returns the original value.", "quantifier": "all triples of values of any width; all triples of pairwise disjoint error masks", "why_tests_cant": "the set of disjoint error-mask triples is 4^width", "anchors": ["include/rad_ml/core/redundancy/enhanced_voting.hpp:bitLevelVote"]}
{"id": "C03", "title": "All un-weighted strategies compute the same result", "statement": "wordErrorVote, burstErrorVote, fastBitCorrection, standardVote and adaptiveVote (for every pattern, including UNKNOWN's confidence selection) return exactly the bitwise majority, so choosing a 'wrong' strategy can never change the outcome.", "quantifier": "all triples of values, all 1/2/4/8 byte integer widths, all patterns", "why_tests_cant": "equality of five algorithms over 2^192 inputs is not testable", "anchors": ["include/rad_ml/core/redundancy/enhanced_voting.hpp:wordErrorVote", "include/rad_ml/core/redundancy/enhanced_voting.hpp:burstErrorVote", "include/rad_ml/core/redundancy/enhanced_voting.hpp:fastBitCorrection", "include/rad_ml/core/redundancy/enhanced_voting.hpp:adaptiveVote", "include/rad_ml/core/redundancy/enhanced_voting.hpp:selectMostConfidentResult", "include/rad_ml/core/redundancy/enhanced_voting.hpp:reconstructFromClosestPair"]}
{"id": "C04", "title": "Fault-pattern classification is sound and complete for its categories", "statement": "detectFaultPattern reports SINGLE_BIT exactly when the outlier differs in exactly one bit, UNKNOWN when all copies agree, BYTE_ERROR only when the difference lies inside one byte, and ADJACENT_BITS for a run of adjacent flipped bits.", "quantifier": "all triples of 32-bit values (and 64-bit where the shift is defined)", "why_tests_cant": "classification is a total function over 2^96 inputs; the ADJACENT_BITS branch is in fact dead code, which no passing test reveals", "anchors": ["include/rad_ml/core/redundancy/enhanced_voting.hpp:detectFaultPattern", "include/rad_ml/core/redundancy/enhanced_voting.hpp:areAdjacentBits", "include/rad_ml/core/redundancy/enhanced_voting.hpp:areByteBoundary"]}
{"id": "C05", "title": "Weighted voting respects weights", "statement": "When no two inputs match, weightedVote sets a result bit iff the total weight of copies having that bit set is at least half of the total weight; a copy that holds strictly more than half of the total weight dictates the whole result.", "quantifier": "all pairwise distinct triples, all non-negative weights (exact arithmetic)", "why_tests_cant": "weights range over a continuum", "anchors": ["include/rad_ml/core/redundancy/enhanced_voting.hpp:weightedVote"]}
{"id": "C06", "title": "TMR masks any corruption of one copy", "statement": "After set(v) (or construction from v), get() returns v even if any single raw copy is overwritten with an arbitrary value any number of times through setRawCopy; for core::redundancy::TripleModularRedundancy repair() then makes all three copies v.", "quantifier": "all values of any equality-comparable type, all copy indices, all sequences of corruptions confined to one copy, interleaved with get()", "why_tests_cant": "corruption histories are unbounded", "anchors": ["include/rad_ml/tmr/tmr.hpp:TMR", "include/rad_ml/tmr/tmr.hpp:get", "include/rad_ml/tmr/tmr.hpp:setRawCopy", "include/rad_ml/tmr/tmr.hpp:repair"]}
{"id": "C07", "title": "TMR error statistics are consistent for every history", "statement": "For every sequence of set/get/setRawCopy/getRawCopy calls the statistics satisfy detected = corrected + uncorrectable, counters never decrease except on resetErrorStats, and the error callback fires exactly once per corrected mismatch, with the majority value and the outlier, never when the copies agree and never when there is no majority.", "quantifier": "all finite operation histories from any initial value", "why_tests_cant": "invariant over unbounded histories", "anchors": ["include/rad_ml/tmr/tmr.hpp:performMajorityVote", "include/rad_ml/tmr/tmr.hpp:getErrorStats"]}
{"id": "C08", "title": "Raw copy access is bounds-checked", "statement": "setRawCopy with an index outside 0..2 changes nothing and getRawCopy with an index outside 0..2 returns copy 0; with an index in range they write and read exactly the named copy.", "quantifier": "all indices and values", "why_tests_cant": "all 2^64 indices", "anchors": ["include/rad_ml/tmr/tmr.hpp:setRawCopy", "include/rad_ml/tmr/tmr.hpp:getRawCopy"]}
{"id": "C09", "title": "CRC-32 detects every error burst of at most 32 bits", "statement": "CRC::calculate gives different checksums for any two byte strings of equal length that differ only inside a window of at most four consecutive bytes, whatever the prefix, suffix and length; in particular it is injective on values of at most four bytes and detects every single-bit and single-byte corruption.", "quantifier": "all byte strings of every length, all window positions, all non-zero differences in the window", "why_tests_cant": "2^32 differences times unbounded lengths and positions", "anchors": ["include/rad_ml/core/redundancy/enhanced_tmr.hpp:CRC::calculate", "include/rad_ml/core/redundancy/space_enhanced_tmr.hpp:SpaceCRC::calculate"]}
{"id": "C10", "title": "EnhancedTMR survives arbitrary corruption of one replica including its checksum", "statement": "After set(v), if one replica's stored value and stored checksum are overwritten arbitrarily, get() returns v, and repair() leaves all replicas equal to v with verify() true.", "quantifier": "all types, values, replica index, corrupted value and checksum", "why_tests_cant": "the corrupted value/checksum pair ranges over 2^96 cases per value", "anchors": ["include/rad_ml/core/redundancy/enhanced_tmr.hpp:EnhancedTMR::get", "include/rad_ml/core/redundancy/enhanced_tmr.hpp:EnhancedTMR::repair", "include/rad_ml/core/redundancy/enhanced_tmr.hpp:EnhancedTMR::verify"]}
{"id": "C11", "title": "EnhancedTMR survives corruption of two replicas' values", "statement": "After set(v), if the stored values (not checksums) of any two replicas are corrupted by CRC-detectable errors (any error for types of at most 4 bytes; any error within 4 consecutive bytes otherwise), get() returns v.", "quantifier": "all values, all pairs of replicas, all detectable corruptions of both", "why_tests_cant": "pairs of corruptions are 2^64 even for 4-byte types", "anchors": ["include/rad_ml/core/redundancy/enhanced_tmr.hpp:EnhancedTMR::get", "include/rad_ml/core/redundancy/enhanced_tmr.hpp:CRC::calculate"]}
{"id": "C12", "title": "EnhancedTMR statistics account for every get", "statement": "Across any history of get/set/repair/corruption, every get() adds exactly one to corrected, or exactly one to uncorrectable, or touches neither; the last happens exactly when all three checksums are valid at that moment. Copying an EnhancedTMR yields the same value replicas and fresh statistics.", "quantifier": "all finite histories of API calls and corruptions", "why_tests_cant": "history property", "anchors": ["include/rad_ml/core/redundancy/enhanced_tmr.hpp:EnhancedTMR::get", "include/rad_ml/core/redundancy/enhanced_tmr.hpp:EnhancedTMR::getErrorStats"]}
{"id": "C13", "title": "SpaceEnhancedTMR::get reports success only with justification", "statement": "get() returns SUCCESS with the stored value after any corruption of one replica (value and checksum), and never returns SUCCESS with a value that has no valid checksum unless every copy's checksum failed and two copies agree. REDUNDANCY_FAILURE is returned when checksums of two copies are valid but they disagree.", "quantifier": "all stored values and corruption states", "why_tests_cant": "state space is 2^192 for 4-byte types", "anchors": ["include/rad_ml/core/redundancy/space_enhanced_tmr.hpp:SpaceEnhancedTMR::get"]}
{"id": "C14", "title": "SpaceEnhancedTMR::verify means the replicas are healthy", "statement": "verify() returning SUCCESS should imply that all three replicas hold the same value with valid checksums.", "quantifier": "all reachable replica states", "why_tests_cant": "requires quantifying over all corruption states; the code does not compare values", "anchors": ["include/rad_ml/core/redundancy/space_enhanced_tmr.hpp:SpaceEnhancedTMR::verify"]}
{"id": "C15", "title": "SpaceEnhancedTMR float voting terminates", "statement": "Reading a SpaceEnhancedTMR<float> always returns, whatever bit patterns its three replicas hold.", "quantifier": "all triples of float bit patterns", "why_tests_cant": "non-termination appears only for particular zero/special combinations", "anchors": ["include/rad_ml/core/redundancy/space_enhanced_tmr.hpp:bitLevelVoteFloat", "include/rad_ml/core/redundancy/space_enhanced_tmr.hpp:handleSpecialFloatVoting"]}
{"id": "C16", "title": "Health scores stay within bounds for every history", "statement": "In HealthWeightedTMR every health score lies in [0.05, 1.0] after any sequence of operations, the per-copy history never exceeds ten entries, and error counters never decrease.", "quantifier": "all finite histories of set/get/repair/regenerate and corruptions (exact arithmetic)", "why_tests_cant": "history invariant over reals", "anchors": ["include/rad_ml/tmr/health_weighted_tmr.hpp:updateHealthScore", "include/rad_ml/tmr/health_weighted_tmr.hpp:getHealthScores"]}
{"id": "C17", "title": "HealthWeightedTMR returns the stored value when at least one replica is provably intact", "statement": "After set(v): if corrupted replicas fail their checksum, get() returns v as long as one replica is intact, whatever the health scores are.", "quantifier": "all values, health scores, and CRC-detected corruptions of at most two replicas", "why_tests_cant": "health scores are continuous; corruption arbitrary", "anchors": ["include/rad_ml/tmr/health_weighted_tmr.hpp:get", "include/rad_ml/tmr/health_weighted_tmr.hpp:performWeightedVoting"]}
{"id": "C18", "title": "ApproximateTMR returns what was stored", "statement": "get() directly after set(v) with the default configuration returns v; and after corruption of one copy returns v or a documented approximation of v.", "quantifier": "all integer values v, all corruptions of one copy", "why_tests_cant": "the approximations of v differ from v for most v, so two uncorrupted copies can outvote or fail to support the exact one", "anchors": ["include/rad_ml/tmr/approximate_tmr.hpp:ApproximateTMR::get", "include/rad_ml/tmr/approximate_tmr.hpp:createApproximation"]}
{"id": "C19", "title": "TemporalRedundancy returns the most common result", "statement": "execute(f) returns a value whose number of occurrences among the n runs is maximal; a deterministic f gives f(); with fewer than n/2 transient failures the correct value is returned; ties go to the smallest value.", "quantifier": "all n, all sequences of n results", "why_tests_cant": "all result sequences of every length; n = 0 is undefined behaviour", "anchors": ["include/rad_ml/tmr/temporal_redundancy.hpp:findMostCommonResult"]}
{"id": "C20", "title": "Checkpoint store is bounded and ordered", "statement": "After any sequence of createCheckpoint calls the store never holds more than max_checkpoints entries, the retained entries are exactly the most recent accepted ones in order, and getLatestCheckpoint is the last accepted state.", "quantifier": "all histories of createCheckpoint with arbitrary times, states, intervals and capacities", "why_tests_cant": "unbounded histories and clock values", "anchors": ["include/rad_ml/core/recovery/checkpoint_manager.hpp:CheckpointManager"]}
{"id": "C21", "title": "Rollback returns the newest acceptable checkpoint", "statement": "rollbackToValid(pred) returns the newest stored state satisfying pred and fails iff none does; rollbackToVersion(v) returns the state stored under v if retained.", "quantifier": "all histories, predicates and versions", "why_tests_cant": "quantifies over predicates and histories", "anchors": ["include/rad_ml/core/recovery/checkpoint_manager.hpp:rollbackToValid", "include/rad_ml/core/recovery/checkpoint_manager.hpp:rollbackToVersion"]}
{"id": "C22", "title": "Table arithmetic implements a field", "statement": "For GF16 and GF1024, multiply/divide/inverse/add/pow satisfy the field laws (associativity, commutativity, distributivity, inverse) on all elements, and coincide with polynomial multiplication modulo the primitive polynomial; GF256 must likewise be constructible.", "quantifier": "all elements and pairs/triples of elements; all instantiations shipped", "why_tests_cant": "GF1024 has 2^30 triples; the GF256 tables have length zero because the size is computed in 8-bit arithmetic", "anchors": ["include/rad_ml/neural/galois_field.hpp:GaloisField"]}
{"id": "C23", "title": "Reed-Solomon correction repairs up to t symbol errors", "statement": "rs_correct_errors/decode on a codeword corrupted in at most nsym/2 symbols returns the original message, and never performs an out-of-bounds access.", "quantifier": "all messages, all error patterns of weight at most nsym/2", "why_tests_cant": "number of error patterns is astronomically large; the shipped decoder can only return its input or go out of bounds", "anchors": ["include/rad_ml/neural/galois_field.hpp:rs_correct_errors", "include/rad_ml/neural/galois_field.hpp:rs_find_error_locator", "include/rad_ml/neural/advanced_reed_solomon.hpp:decode"]}
{"id": "C24", "title": "Interleaving round-trips", "statement": "deinterleave(interleave(d)) = d for every byte string d.", "quantifier": "all byte strings of all lengths", "why_tests_cant": "unbounded lengths; the code only handles the first n/8 rows", "anchors": ["include/rad_ml/neural/advanced_reed_solomon.hpp:interleave", "include/rad_ml/neural/advanced_reed_solomon.hpp:deinterleave"]}
{"id": "C25", "title": "Reed-Solomon encode is systematic and decode of a clean codeword is the identity", "statement": "encode(v) begins with the bytes of v and has length sizeof(T)+ECC; decoding it unmodified returns v; decode of too short a buffer reports failure.", "quantifier": "all values of every trivially copyable type", "why_tests_cant": "all values", "anchors": ["include/rad_ml/neural/advanced_reed_solomon.hpp:encode", "include/rad_ml/neural/advanced_reed_solomon.hpp:decode"]}
{"id": "C26", "title": "Hamming protection corrects every single-bit upset", "statement": "MultibitProtection with HAMMING encoding: after one arbitrary bit of the stored value flips, getValue() returns the original value; the same for SECDED.", "quantifier": "all 32-bit values, all 32 bit positions, both codes", "why_tests_cant": "2^37 cases", "anchors": ["include/rad_ml/neural/multibit_protection.hpp:MultibitProtection::getValue", "include/rad_ml/neural/multibit_protection.hpp:correctHamming", "include/rad_ml/neural/multibit_protection.hpp:correctSECDED"]}
{"id": "C27", "title": "SECDED detects every double-bit upset", "statement": "MultibitProtection with SECDED encoding: after any two distinct bits of the stored value flip, the error is reported and the value is not silently replaced by a different wrong value.", "quantifier": "all 32-bit values, all pairs of positions", "why_tests_cant": "2^41 cases", "anchors": ["include/rad_ml/neural/multibit_protection.hpp:MultibitProtection::correctErrors"]}
{"id": "C28", "title": "Bit interleaving is a bijection", "statement": "undoBitInterleaving and applyBitInterleaving are inverse to each other; neighbouring logical bits are stored at least 15 cells apart, no two neighbouring cells hold neighbouring logical bits, and an upset of any set of cells flips exactly the logical bits stored there.", "quantifier": "all 32-bit words", "why_tests_cant": "2^32 words", "anchors": ["include/rad_ml/neural/multibit_protection.hpp:applyBitInterleaving", "include/rad_ml/neural/multibit_protection.hpp:undoBitInterleaving"]}
{"id": "C29", "title": "FixedVector refines a bounded sequence", "statement": "Every sequence of push_back/at/operator[]/clear/size/empty calls on FixedVector<T,N> (operator[] only with current indices) behaves like a list whose length never exceeds N: failing operations leave it unchanged and no element outside the current size is reachable through checked access.", "quantifier": "all operation histories, all element types, all capacities", "why_tests_cant": "unbounded histories", "anchors": ["include/rad_ml/core/memory/fixed_containers.hpp:FixedVector"]}
{"id": "C30", "title": "FixedMap refines a finite map", "statement": "After any history of insert/erase/clear, find(k) returns the value most recently inserted for k and not erased since; keys are unique; size never exceeds the capacity; insert of a new key into a full map fails and changes nothing.", "quantifier": "all operation histories over all keys and values", "why_tests_cant": "unbounded histories", "anchors": ["include/rad_ml/core/memory/fixed_containers.hpp:FixedMap"]}
{"id": "C31", "title": "StaticAllocator never hands out overlapping or out-of-range blocks", "statement": "All live blocks returned by allocate lie inside the buffer, are disjoint and aligned for T; a request that does not fit fails with bad_alloc and changes nothing.", "quantifier": "all sequences of allocation requests, all buffer sizes and alignments (request sizes for which n*sizeof(T) does not wrap)", "why_tests_cant": "unbounded histories; the wrap-around request is an explicit counterexample", "anchors": ["include/rad_ml/core/memory/static_allocator.hpp:StaticAllocator::allocate"]}
{"id": "C32", "title": "Fixed-point arithmetic is exact within range", "statement": "For FixedPoint, addition/subtraction/negation of in-range operands are exact and comparison agrees with the represented rational; multiplication rounds the exact product down and division truncates the exact quotient, with error below one unit in the last place, whenever the result is representable; conversions from int and float round-trip.", "quantifier": "all raw values of the underlying integer type", "why_tests_cant": "2^64 operand pairs", "anchors": ["include/rad_ml/math/fixed_point.hpp:FixedPoint"]}
{"id": "C33", "title": "Branchless operations equal their branching specifications", "statement": "min/max/abs/sign/select/clamp compute the mathematical minimum, maximum, absolute value, sign, selection and clamp for every defined input; abs of the most negative value is undefined behaviour.", "quantifier": "all pairs/triples of 32-bit and 64-bit signed integers", "why_tests_cant": "2^64 to 2^192 inputs", "anchors": ["include/rad_ml/math/branchless_ops.hpp"]}
{"id": "C34", "title": "Bit-manipulation helpers act on exactly the named bit", "statement": "flipBit(v,i) flips bit i and only bit i when i is in range and nothing otherwise; flipping twice restores v; countBitDifferences is a metric (zero iff equal, symmetric, triangle inequality).", "quantifier": "all values, all positions", "why_tests_cant": "2^64 values times positions", "anchors": ["include/rad_ml/utils/bit_manipulation.hpp"]}
{"id": "C35", "title": "InterleavedBitMemory tolerates upsets as documented", "statement": "After write(v), flipping any one physical bit leaves read() = v; flipping two physically adjacent bits should also leave read() = v (the purpose of the interleaving).", "quantifier": "all values, all physical positions", "why_tests_cant": "2^width values times positions; the adjacent case is violated", "anchors": ["include/rad_ml/core/memory/aligned_memory.hpp:InterleavedBitMemory"]}
{"id": "C36", "title": "Protected memory block CRC and restore", "statement": "memory_scrubbing: verify_crc accepts unmodified data always and rejects any modification confined to 4 consecutive bytes; restore after backup reproduces the data exactly; the table-driven CRC equals the bitwise CRC-32.", "quantifier": "all byte strings, all windowed modifications", "why_tests_cant": "unbounded data", "anchors": ["include/rad_ml/core/memory/memory_scrubbing.hpp"]}
{"id": "C37", "title": "MemoryScrubber (memory/) detects corruption and never reports clean memory", "statement": "A scrub pass over unmodified memory reports no errors; a pass over memory with one corrupted byte reports an error.", "quantifier": "all registered regions of all sizes and contents, all single-byte corruptions", "why_tests_cant": "region sizes unbounded; the shipped table lacks four entries and large regions use a different checksum", "anchors": ["include/rad_ml/memory/memory_scrubber.hpp:MemoryScrubber", "include/rad_ml/memory/memory_scrubber.hpp:crc_table"]}
{"id": "C38", "title": "Allocation accounting of the unified memory manager", "statement": "After any history of allocations and deallocations current_allocations equals the number of live tracked blocks, total_allocations \u2212 total_deallocations = current_allocations, peak \u2265 current, and current bytes equal the sum of live sizes.", "quantifier": "all histories of allocate/deallocate (unprotected blocks), with failing allocations", "why_tests_cant": "unbounded histories", "anchors": ["include/rad_ml/core/memory/unified_memory.hpp:UnifiedMemoryManager::allocate", "include/rad_ml/core/memory/unified_memory.hpp:UnifiedMemoryManager::deallocate"]}
{"id": "C39", "title": "Protected allocations can be verified and released", "statement": "verifyMemoryIntegrity and deallocate on a live protected allocation return (no self-deadlock), a pointer returned by allocate can be passed to deallocate, and statistics never underflow.", "quantifier": "all protection levels and histories", "why_tests_cant": "lock re-acquisition occurs only on particular paths", "anchors": ["include/rad_ml/core/memory/unified_memory.hpp:verifyMemoryIntegrity", "include/rad_ml/core/memory/unified_memory.hpp:deallocate", "include/rad_ml/core/memory/unified_memory.hpp:protectMemory", "include/rad_ml/core/memory/unified_memory.hpp:unprotectMemory"]}
{"id": "C40", "title": "RadiationMappedAllocator keeps live blocks disjoint and inside their zone", "statement": "For all histories of allocate/deallocate with non-zero sizes, live blocks are pairwise disjoint, each inside the zone it was placed in; zero-size requests and zone fallback must not break this.", "quantifier": "all histories of requests, all zone configurations", "why_tests_cant": "unbounded histories; fallback overwrites a zone and zero-size blocks alias", "anchors": ["include/rad_ml/memory/radiation_mapped_allocator.hpp:allocate", "include/rad_ml/memory/radiation_mapped_allocator.hpp:deallocate", "include/rad_ml/memory/radiation_mapped_allocator.hpp:find_available_space"]}
{"id": "C41", "title": "Error tracker counts every recorded error and bounds its history", "statement": "After any history, the total count equals the number of recorded errors since the last reset, per-pattern counts sum to the total, the history holds the most recent min(n, max) errors in order.", "quantifier": "all histories of record/reset", "why_tests_cant": "unbounded histories", "anchors": ["include/rad_ml/core/runtime/error_tracker.hpp:ErrorTracker"]}
{"id": "C42", "title": "Status and Result types propagate success and failure faithfully", "statement": "Result map/flatMap obey the functor and monad laws, errors are propagated unchanged, value access on an error never yields a value; StatusCode equality is an equivalence determined by domain and code.", "quantifier": "all values, errors and continuations", "why_tests_cant": "quantifies over all functions", "anchors": ["include/rad_ml/error/error_handling.hpp:Result", "include/rad_ml/core/error/status_code.hpp:Result"]}
{"id": "C43", "title": "Adaptive framework escalates and never oscillates within the hysteresis window", "statement": "Environment transitions follow the thresholds; a change is applied only if levels differ by at least two or more than five minutes have elapsed; listeners are notified exactly on change; protection settings get monotonically stronger with harsher environments.", "quantifier": "all error-rate/time histories", "why_tests_cant": "timed histories are unbounded", "anchors": ["include/rad_ml/core/adaptive/adaptive_framework.hpp"]}
{"id": "C44", "title": "Adaptive protection level follows the smoothed flux monotonically", "statement": "The protection level chosen is a monotone function of the smoothed radiation flux, the smoothed flux always lies between the minimum and maximum observed measurement, and registered callbacks are invoked exactly on level changes.", "quantifier": "all measurement histories", "why_tests_cant": "real-valued histories", "anchors": ["include/rad_ml/core/radiation/adaptive_protection.hpp"]}
{"id": "C45", "title": "Voting confidence is a proper score", "statement": "The confidence reported by detectFaultPatternWithConfidence lies in [0,1] for every triple of values and equals 1 only if all three copies agree.", "quantifier": "all triples of values (exact arithmetic for the scores)", "why_tests_cant": "2^96 triples", "anchors": ["include/rad_ml/core/redundancy/enhanced_voting.hpp:detectFaultPatternWithConfidence", "include/rad_ml/core/redundancy/enhanced_voting.hpp:calculateConfidence"]}
{"id": "C46", "title": "Batch voting is safe, order preserving and masks single corruptions", "statement": "batchProcess never performs an out-of-bounds access, returns exactly one output per input triple in the same order, and every output equals x whenever two of its three inputs are x.", "quantifier": "all batch sizes, all triples, all positions of the corrupted copies", "why_tests_cant": "unbounded batch sizes, block boundaries and 2^96 triples each", "anchors": ["include/rad_ml/core/redundancy/enhanced_voting.hpp:batchProcess"]}
{"id": "C47", "title": "EnhancedTMR::detectFaultPattern is defined and reports single-bit faults exactly", "statement": "For every content of the three replicas, detectFaultPattern of a 4-byte EnhancedTMR executes no undefined behaviour, never reports BURST_ERROR or UNKNOWN, and reports SINGLE_BIT iff the largest pairwise Hamming distance is one; the same should hold for 8-byte types.", "quantifier": "all triples of replica values", "why_tests_cant": "2^96 triples; undefined shifts only show on particular bit patterns", "anchors": ["include/rad_ml/core/redundancy/enhanced_tmr.hpp:detectFaultPattern"]}
{"id": "C48", "title": "Memory region registry of the core scrubber", "statement": "For every history of registerMemory/unregisterMemory: each registration gets a handle no live region has, unregistering removes exactly that region and no other, and a scrub pass visits each live region exactly once in registration order.", "quantifier": "all histories of register/unregister calls", "why_tests_cant": "unbounded histories", "anchors": ["include/rad_ml/core/memory/memory_scrubbing.hpp:MemoryScrubber"]}
{"id": "C49", "title": "HealthWeightedTMR masks a single replica whose checksum is forged as well", "statement": "With two intact replicas holding v, get() returns v even if the third replica holds another value with a matching checksum.", "quantifier": "all values, all replica indices, all histories before the upset", "why_tests_cant": "depends on health scores accumulated over an unbounded history", "anchors": ["include/rad_ml/tmr/health_weighted_tmr.hpp:performWeightedVoting"]}
{"id": "C50", "title": "EnhancedStuckBitTMR masks every history of corruptions of one copy", "statement": "After set(v), for every history of get/repair calls interleaved with arbitrary corruptions that all hit one and the same copy, get() returns v.", "quantifier": "all values, all copies, all histories of get, repair and corruption", "why_tests_cant": "unbounded histories with mutable stuck-bit masks; 2^64 corruption patterns per step", "anchors": ["include/rad_ml/tmr/enhanced_stuck_bit_tmr.hpp:EnhancedStuckBitTMR"]}
{"id": "C51", "title": "EnhancedStuckBitTMR repair restores the redundancy", "statement": "After set(v) and a corruption of one copy, repair() makes all three copies equal to v again, so a later corruption of another copy is still masked.", "quantifier": "all values, all copies, all corruption patterns", "why_tests_cant": "depends on masks learned over a history; only certain bit polarities fail", "anchors": ["include/rad_ml/tmr/enhanced_stuck_bit_tmr.hpp:repair", "include/rad_ml/tmr/enhanced_stuck_bit_tmr.hpp:detectStuckBits"]}
{"id": "C52", "title": "EnhancedStuckBitTMR health and stuck-bit reports are sound", "statement": "Health scores stay in [0.1,1] for every history; a stuck bit is reported for a copy only after its counter reached the threshold by repeated repairs since the last set; set() clears the report.", "quantifier": "all histories", "why_tests_cant": "unbounded histories", "anchors": ["include/rad_ml/tmr/enhanced_stuck_bit_tmr.hpp:updateHealthScores", "include/rad_ml/tmr/enhanced_stuck_bit_tmr.hpp:hasStuckBits", "include/rad_ml/tmr/enhanced_stuck_bit_tmr.hpp:set"]}
{"id": "C53", "title": "HybridRedundancy masks one corrupted copy and can roll back", "statement": "No operation has undefined behaviour; after set(v) any corruption of one copy is masked by get(); rollback restores the newest checkpoint; every set() beyond the first creates a checkpoint of the stored value.", "quantifier": "all values, corruption patterns and timed histories", "why_tests_cant": "timed unbounded histories", "anchors": ["include/rad_ml/tmr/hybrid_redundancy.hpp:HybridRedundancy"]}
{"id": "C54", "title": "AlignedProtectedMemory masks upsets and does not let them accumulate", "statement": "With scrubbing on, for every history in which at most one copy is hit between consecutive reads (possibly a different copy each time), every read returns the stored value; with scrubbing off, any number of hits on one and the same copy is masked.", "quantifier": "all 32-bit values, all histories of reads and upsets", "why_tests_cant": "unbounded histories, arbitrary corruption values", "anchors": ["include/rad_ml/core/memory/aligned_memory.hpp:AlignedProtectedMemory"]}
{"id": "C55", "title": "ProtectedValue returns the stored value or an error, and propagates errors", "statement": "After a hit on one of the three copies get() returns the stored value; it never returns a wrong value; scrub() restores all copies; transform() applies the function to the value and propagates a corruption error so that a later get() reports it.", "quantifier": "all 32-bit values, all corruption values, all copies, all functions", "why_tests_cant": "2^64 value/corruption pairs; confidence threshold only trips on particular bit patterns", "anchors": ["include/rad_ml/core/memory/protected_value.hpp:ProtectedValue"]}
{"id": "C56", "title": "MultibitProtection: upsets in the check bytes do not change the value", "statement": "After one check byte of a protected value is overwritten with arbitrary content and the value itself is intact, getValue() returns the stored value, in HAMMING, SECDED and REED_SOLOMON mode.", "quantifier": "all 32-bit values, all check bytes, all contents", "why_tests_cant": "2^43 cases", "anchors": ["include/rad_ml/neural/multibit_protection.hpp:getValue", "include/rad_ml/neural/multibit_protection.hpp:correctErrors"]}
{"id": "C57", "title": "MultibitProtection REED_SOLOMON mode: single-byte correction, detection of every corruption", "statement": "hasError() is true iff the stored value differs from the written one; a corruption confined to one byte is corrected exactly; a corruption of two bytes is reported as uncorrectable and leaves the value alone; no corruption is 'corrected' to a wrong value.", "quantifier": "all 32-bit values and all corruptions of the value", "why_tests_cant": "2^64 pairs of written and stored words", "anchors": ["include/rad_ml/neural/multibit_protection.hpp:checkReedSolomon", "include/rad_ml/neural/multibit_protection.hpp:correctReedSolomon"]}
{"id": "C58", "title": "ChecksumProtection detects every corruption of the value", "statement": "hasError() of a ChecksumProtection is true iff its stored value differs from the one last written.", "quantifier": "all 32-bit values and corruptions", "why_tests_cant": "2^64 pairs", "anchors": ["include/rad_ml/neural/multibit_protection.hpp:ChecksumProtection::hasError"]}
{"id": "C59", "title": "Registry of memory::MemoryScrubber", "statement": "Over every history of register/unregister/setECC/scrub/reset calls, with memory contents changing arbitrarily in between, handles of live regions are non-zero and pairwise distinct, registration returns a handle not in use, and unregistering succeeds exactly for live handles and removes exactly that region.", "quantifier": "all histories, all memory contents", "why_tests_cant": "unbounded histories", "anchors": ["include/rad_ml/memory/memory_scrubber.hpp:registerMemoryRegion", "include/rad_ml/memory/memory_scrubber.hpp:unregisterMemoryRegion"]}
{"id": "C60", "title": "RadiationMappedAllocator places data by criticality", "statement": "A request is served from the zone of the level wanted for its criticality whenever that zone has a free range of the requested size (at the lowest such address); falls back to a less protected zone only otherwise, and to system memory only if the fallback zone is full too.", "quantifier": "all zone configurations with one zone per level, all histories, sizes and criticalities", "why_tests_cant": "unbounded histories; which zone is searched depends on the history of overflows", "anchors": ["include/rad_ml/memory/radiation_mapped_allocator.hpp:allocate", "include/rad_ml/memory/radiation_mapped_allocator.hpp:select_zone_for_criticality", "include/rad_ml/memory/radiation_mapped_allocator.hpp:find_fallback_zone", "include/rad_ml/memory/radiation_mapped_allocator.hpp:find_available_space"]}
{"id": "C61", "title": "RadiationMappedAllocator usage reports and vulnerability score", "statement": "Usage by criticality and usage by zone add up to the bytes of the live blocks, each request is charged to its own criticality, and the vulnerability score always lies between 0 and 1.", "quantifier": "all histories and states", "why_tests_cant": "unbounded histories", "anchors": ["include/rad_ml/memory/radiation_mapped_allocator.hpp:get_criticality_usage", "include/rad_ml/memory/radiation_mapped_allocator.hpp:get_diagnostics", "include/rad_ml/memory/radiation_mapped_allocator.hpp:calculate_vulnerability_score"]}
{"id": "C62", "title": "Error rate reported by RadiationErrorTracker", "statement": "getErrorRate() is a smoothed number of recorded errors per second: it is non-negative, never exceeds what the recorded errors account for, is expressed in errors per second, starts afresh after reset(), and depends only on the errors of this tracker.", "quantifier": "all histories of recorded errors and clock values", "why_tests_cant": "unbounded histories and clock readings", "anchors": ["include/rad_ml/core/runtime/error_tracker.hpp:updateErrorRate", "include/rad_ml/core/runtime/error_tracker.hpp:reset"]}
{"id": "C63", "title": "Error handler: reporting level, throwing, callbacks", "statement": "Errors below the reporting level are never logged and all others are, in order; handling an error throws exactly when its severity reaches the threshold and then carries that error; every registered callback is invoked exactly once per logged error, in registration order, and never after it was unregistered; ids are never reused; unregistering reports whether something was removed.", "quantifier": "all histories of register/unregister/log calls, all errors and thresholds", "why_tests_cant": "unbounded histories", "anchors": ["include/rad_ml/error/error_handling.hpp:ErrorHandler"]}
{"id": "C64", "title": "Life cycle of a MultibitProtection object", "statement": "After setValue(v) on any object no error is reported, the object is valid and getValue returns v without changing it; after markInvalid() an error is reported and the object is not valid until the next setValue; marking an intact object invalid never makes getValue return anything but the value written last.", "quantifier": "all schemes, all prior object states, all values", "why_tests_cant": "2^32 values times arbitrary check-byte contents per scheme", "anchors": ["include/rad_ml/neural/multibit_protection.hpp:setValue", "include/rad_ml/neural/multibit_protection.hpp:markInvalid", "include/rad_ml/neural/multibit_protection.hpp:isValid", "include/rad_ml/neural/multibit_protection.hpp:getValue"]}
{"id": "C65", "title": "Usable memory returned by the unified memory manager", "statement": "A non-null pointer returned by allocate is followed by at least the requested number of bytes inside the block obtained from the heap, is aligned when ALIGNED is requested, is zeroed when ZERO_INITIALIZED is requested, and canary guard words lie inside the block but outside the user bytes.", "quantifier": "all sizes, flags, protection levels and alignments", "why_tests_cant": "size computations wrap at 2^64", "anchors": ["include/rad_ml/core/memory/unified_memory.hpp:UnifiedMemoryManager::allocate", "include/rad_ml/core/memory/unified_memory.hpp:calculateProtectedSize", "include/rad_ml/core/memory/unified_memory.hpp:setupMemoryProtection"]}
{"id": "C66", "title": "Exclusive ownership by RadiationTolerantPtr", "statement": "After any history of make/reset/release/move operations, with throwing constructors and failing allocations, every non-null pointer held is a live block, no block has two owners, every live block is owned or was released to the caller, no block is released twice, and once all pointers are null nothing is leaked and every object has been destroyed.", "quantifier": "all histories, all protection levels", "why_tests_cant": "unbounded histories of ownership transfers", "anchors": ["include/rad_ml/core/memory/unified_memory.hpp:RadiationTolerantPtr"]}
{"id": "C67", "title": "Monitored TMR container: a fault in one copy is masked and repaired", "statement": "get() returns the value held by any two copies, in every state; after set(v), faults confined to one copy never change what is read, and regenerateCopies() restores all copies to the stored value.", "quantifier": "all histories of calls and faults, all values, checksum functions, times and random draws", "why_tests_cant": "unbounded histories; the health scores that select the repair source depend on the whole history", "anchors": ["include/rad_ml/tmr/enhanced_tmr.hpp:get", "include/rad_ml/tmr/enhanced_tmr.hpp:set", "include/rad_ml/tmr/enhanced_tmr.hpp:regenerateCopies", "include/rad_ml/tmr/enhanced_tmr.hpp:performWeightedVoting"]}
{"id": "C68", "title": "Monitored TMR container: health scores", "statement": "In every history of calls and faults, the health score of each copy lies in the documented interval [0.1, 1].", "quantifier": "all histories", "why_tests_cant": "unbounded histories of multiplicative updates", "anchors": ["include/rad_ml/tmr/enhanced_tmr.hpp:verifyCRCs", "include/rad_ml/tmr/enhanced_tmr.hpp:performWeightedVoting", "include/rad_ml/tmr/enhanced_tmr.hpp:setRawCopy"]}
{"id": "C69", "title": "Monitored TMR container: verification", "statement": "verify() returns true exactly if all copies match their checksums, is repeatable and leaves the values alone; a burst of up to 32 bits in one copy is always reported, exactly once, with the right values, and charged to that copy only.", "quantifier": "all object sizes, values, bursts, copies and settings", "why_tests_cant": "all values times all bursts, any size", "anchors": ["include/rad_ml/tmr/enhanced_tmr.hpp:verify", "include/rad_ml/tmr/enhanced_tmr.hpp:verifyCRCs", "include/rad_ml/tmr/enhanced_tmr.hpp:CRC32"]}
{"id": "C70", "title": "Monitored TMR container: choice among three different copies", "statement": "With three different copies the read returns one of them, chosen with probability proportional to its health score; a copy that fails its checksum is not preferred to one that passes.", "quantifier": "all states and random draws", "why_tests_cant": "real-valued random draw and scores", "anchors": ["include/rad_ml/tmr/enhanced_tmr.hpp:get", "include/rad_ml/tmr/enhanced_tmr.hpp:performWeightedVoting"]}
{"id": "C71", "title": "Monitored TMR container: calls from several threads finish", "statement": "Calls of the member functions from any number of threads never deadlock: whenever some call is unfinished some thread can proceed, and every call can return.", "quantifier": "all numbers of threads, all calls, all schedules", "why_tests_cant": "unbounded interleavings", "anchors": ["include/rad_ml/tmr/enhanced_tmr.hpp:clone", "include/rad_ml/tmr/enhanced_tmr.hpp:mutex_"]}
{"id": "C72", "title": "BasicTMR, EnhancedTMR, HybridRedundancy strategies: honest reports", "statement": "For every three results of the operation, execute() returns a majority value if there is one and one of the results otherwise, and reports error_detected exactly if they differ, error_corrected exactly if a majority remained, and the documented confidence.", "quantifier": "all result types and all triples of results", "why_tests_cant": "all triples of values; floating-point equality", "anchors": ["include/rad_ml/tmr/adaptive_protection_impl.hpp:BasicTMR::execute", "include/rad_ml/tmr/adaptive_protection_impl.hpp:EnhancedTMR::execute", "include/rad_ml/tmr/adaptive_protection_impl.hpp:HybridRedundancy::execute"]}
{"id": "C73", "title": "StuckBitTMR strategy", "statement": "If two of three runs return the same correct value, execute() returns it and reports the error status truthfully; if all results look stuck the answer is the bitwise majority.", "quantifier": "all result types, all triples", "why_tests_cant": "all triples of values of any type", "anchors": ["include/rad_ml/tmr/adaptive_protection_impl.hpp:StuckBitTMR::execute", "include/rad_ml/tmr/adaptive_protection_impl.hpp:checkForStuckBits"]}
{"id": "C74", "title": "HealthWeightedTMR strategy", "statement": "In every history of execute() calls the component scores stay in [0.1, 1] and the confidence in (0, 1]; agreeing runs are returned with confidence 1; a single corrupted run of three never changes the answer.", "quantifier": "all histories of triples of results", "why_tests_cant": "the weights depend on the unbounded history", "anchors": ["include/rad_ml/tmr/adaptive_protection_impl.hpp:HealthWeightedTMR::execute"]}
{"id": "C75", "title": "Environment-driven choice of the protection level", "statement": "calculateOptimalProtectionLevel never returns NONE, gives components of criticality above 0.9 the strongest level, follows the documented thresholds of the radiation need, and is monotone: a harsher environment, a less tolerant material or a more critical component never lowers the level.", "quantifier": "all environments, tolerances and criticalities", "why_tests_cant": "real-valued inputs", "anchors": ["include/rad_ml/tmr/adaptive_protection_impl.hpp:calculateOptimalProtectionLevel", "include/rad_ml/tmr/adaptive_protection.hpp:TMRStrategyFactory"]}
{"id": "C76", "title": "Checkpoint interval adjusted to the environment", "statement": "adjustCheckpointInterval always returns a number in [10, 3600] seconds even for zero, infinite or NaN factors; for positive factors it is the base divided by all of them, clamped, and it never grows when a factor grows or the SAA is entered.", "quantifier": "all double inputs", "why_tests_cant": "all doubles including non-finite ones", "anchors": ["src/tmr/adaptive_protection.cpp:adjustCheckpointInterval", "include/rad_ml/tmr/adaptive_protection.hpp"]}
{"id": "C77", "title": "Per-layer protection policy", "statement": "Over every history of calls with arbitrary indices no access is out of range; a layer set is read back and no other layer changes; optimizeProtection never leaves a layer unprotected, gives every layer the strongest level in the SAA or in strong solar activity, and never protects a later, less sensitive layer more than an earlier, more sensitive one.", "quantifier": "all histories, numbers of layers, indices, sensitivities and environments", "why_tests_cant": "unbounded histories and networks", "anchors": ["src/tmr/adaptive_protection.cpp:LayerProtectionPolicy"]}
{"id": "C78", "title": "Mission protection controller", "statement": "The current level is always that of the last decision (last environment update or last entry into a registered phase), environment updates are monotone in harshness, and the strategy created matches the current level, from construction on; entering a phase does not lower the protection required by the environment.", "quantifier": "all histories of updates, phase definitions and phase entries", "why_tests_cant": "unbounded histories", "anchors": ["src/tmr/adaptive_protection.cpp:MissionAwareProtectionController"]}
{"id": "C79", "title": "Monitored TMR container: statistics, periodic verification, raw access, regeneration", "statement": "The reported numbers of reads and writes are exactly those since the last reset; each read counts a disagreement exactly if the copies differ and verifies checksums exactly when the configured interval has elapsed; raw access addresses exactly the given copy; regenerateCopies fails without effect exactly if no copy has a health of at least 0.6, and otherwise leaves three verified copies of a healthiest copy's value.", "quantifier": "all histories of calls and faults", "why_tests_cant": "unbounded histories and clock values", "anchors": ["include/rad_ml/tmr/enhanced_tmr.hpp:getErrorStats", "include/rad_ml/tmr/enhanced_tmr.hpp:resetErrorStats", "include/rad_ml/tmr/enhanced_tmr.hpp:getRawCopy", "include/rad_ml/tmr/enhanced_tmr.hpp:setRawCopy", "include/rad_ml/tmr/enhanced_tmr.hpp:regenerateCopies", "include/rad_ml/tmr/enhanced_tmr.hpp:get"]}
{"id": "C80", "title": "Single-bit tools", "statement": "flipBit changes exactly the addressed bit (nothing for an invalid position) and is its own inverse; isBitSet reads exactly the addressed bit; countBitDifferences is the number of differing bits of the two values, of every type.", "quantifier": "all values, types and positions", "why_tests_cant": "2^64 values per type, signed positions", "anchors": ["include/rad_ml/utils/bit_manipulation.hpp:BitManipulation"]}
{"id": "C81", "title": "Systematic fault patterns", "statement": "Whatever the pattern, the position and the draws, only bits inside the value are touched, without reading beyond the value; each pattern changes exactly the bits it documents (single bit, stuck bit, byte, word, row and column, adjacent bits, burst); flipping patterns are reversible.", "quantifier": "all values, patterns, positions and random draws", "why_tests_cant": "all draws and types", "anchors": ["include/rad_ml/testing/fault_injection.hpp:SystematicFaultInjector::injectFault", "src/testing/fault_injection.cpp:getBitsToFlip"]}
{"id": "C82", "title": "Byte fault injector and resilience test", "statement": "A fault injected into a region changes only the drawn byte, as its type says, and a flip does change it; in testResilience corrections never exceed detections and detections never exceed trials; a perfect component gets full marks; 'corrected' is reported only if the detected faults were corrected.", "quantifier": "all regions, fault types, draws, components and numbers of trials", "why_tests_cant": "arbitrary callables and unbounded numbers of trials", "anchors": ["include/rad_ml/testing/fault_injector.hpp:FaultInjector"]}
{"id": "C83", "title": "Single event upset simulator", "statement": "injectErrors changes only bits inside the region given, at most as many as the number it returns and the same number modulo two; without environment or region it does nothing; a campaign over regions returns the sum.", "quantifier": "all memories, regions, draws", "why_tests_cant": "arbitrary regions and draws", "anchors": ["include/rad_ml/radiation/seu_simulator.hpp:SEUSimulator"]}
{"id": "C84", "title": "Protection techniques compared by the test module", "statement": "The Hamming code restores every nibble after at most one upset; applyTMR leaves a bit wrong exactly if two or more of its copies were upset and total errors minus corrections is the number of bits left wrong; applyEDAC restores every byte with at most one upset per codeword and never reports more corrections than errors; scrubbing always restores the memory; more upsets are not silently miscorrected, and the unprotected baseline suffers the events.", "quantifier": "all memories, event lists and random draws", "why_tests_cant": "unbounded memories and event lists, all draws", "anchors": ["src/testing/protection_techniques.cpp:HammingCode", "src/testing/protection_techniques.cpp:applyTMR", "src/testing/protection_techniques.cpp:applyEDAC", "src/testing/protection_techniques.cpp:applyScrubbing", "src/testing/protection_techniques.cpp:applyProtectionTechnique"]}
{"id": "C85", "title": "Protected network computes its parameters' function", "statement": "For every history of setter calls, strikes, passes and training, a forward pass over an input of the right size succeeds, changes no parameter and returns what a plain feed-forward network with the parameters written so far computes; wrong sizes, layers and matrix shapes are rejected, and a rejected call changes nothing.", "quantifier": "all layer sizes, protection levels, histories, inputs, float arithmetics", "why_tests_cant": "unbounded histories and network shapes", "anchors": ["include/rad_ml/neural/protected_neural_network.hpp:forward", "include/rad_ml/neural/protected_neural_network.hpp:setLayerWeights", "include/rad_ml/neural/protected_neural_network.hpp:setLayerBiases"]}
{"id": "C86", "title": "Protection level protects the weights", "statement": "At a TMR protection level a strike on a single weight copy is corrected or at least detected and counted; repairing restores the stored weights; a protected network is no more exposed to strikes than an unprotected one.", "quantifier": "all histories, strikes and protection levels", "why_tests_cant": "unbounded histories and strike patterns", "anchors": ["include/rad_ml/neural/protected_neural_network.hpp:applyRadiationEffects", "include/rad_ml/neural/protected_neural_network.hpp:repairAllWeights", "include/rad_ml/neural/protected_neural_network.hpp:getWeight"]}
{"id": "C87", "title": "Activation voting never makes results worse", "statement": "When at most one redundant copy of each activation is struck the forward pass returns the unprotected result bit for bit; detections equal corrections plus uncorrectable errors; a pass without parameter or activation upsets returns the right result and counts no error.", "quantifier": "all inputs, radiation levels, strike draws, histories", "why_tests_cant": "all draws and histories", "anchors": ["include/rad_ml/neural/protected_neural_network.hpp:protectActivations", "include/rad_ml/neural/protected_neural_network.hpp:getErrorStats"]}
{"id": "C88", "title": "Layer view, copy, training and loss of the network", "statement": "The layer view shows the parameters in use and writing through the mutable view takes effect; a copy behaves as the original; training adapts the network; the loss is computed from the network's outputs for every sample and never throws or divides by zero.", "quantifier": "all histories, data sets, labels and epoch counts", "why_tests_cant": "unbounded histories and data", "anchors": ["include/rad_ml/neural/protected_neural_network.hpp:getLayerMutable", "include/rad_ml/neural/protected_neural_network.hpp:train", "include/rad_ml/neural/protected_neural_network.hpp:calculateLoss"]}
{"id": "C89", "title": "BasicTMR and EnhancedTMR keep their value", "statement": "A value stored in BasicTMR or EnhancedTMR is returned by get however often and with whatever values a single copy is overwritten, for ever if repair is called between strikes on different copies; a value held by strictly more copies than any other wins; repair makes the copies agree on what get returned and reports whether it was needed; the error counter counts the repaired errors; a lost majority is visible.", "quantifier": "all values, strike sequences, copies, histories, hash iteration orders", "why_tests_cant": "unbounded strike/repair histories, all values and all hash-map iteration orders", "anchors": ["rad_ml/tmr/basic_tmr.hpp:BasicTMR", "rad_ml/tmr/basic_tmr.hpp:EnhancedTMR"]}
{"id": "C90", "title": "Physics-driven level and voting (header-only library)", "statement": "executeProtected masks a single faulty execution and reports every disagreement, and a higher level is never weaker than a lower one; the level is a monotone function of the last environment, material and phase, never NONE, and every level is selected by some environment.", "quantifier": "all operation results, levels, environments, materials, phases and histories", "why_tests_cant": "all results, real-valued environments and unbounded histories", "anchors": ["rad_ml/tmr/physics_driven_protection.hpp:executeProtected", "rad_ml/tmr/physics_driven_protection.hpp:updateProtectionLevel"]}
{"id": "C91", "title": "Physics formulas are bounded and monotone", "statement": "The temperature-corrected threshold equals the base at 295 K and falls with temperature as documented; the mechanical load factor is at least 1, bounded and monotone; the synergy factor lies in [1,1.5] and grows with temperature and stress.", "quantifier": "all real temperatures, stresses, strengths and doses", "why_tests_cant": "real-valued inequalities over unbounded domains", "anchors": ["include/rad_ml/tmr/physics_driven_protection.hpp:PhysicsModels"]}
{"id": "C92", "title": "Resource allocation by sensitivity and environment", "statement": "Allocated shares are nonnegative, sum to the available resources and follow sensitivity, position and environment; the level is a monotone function of the share; sensitive layers get more than basic protection.", "quantifier": "all layer counts, sensitivities, severities and totals", "why_tests_cant": "unbounded layer counts and real inputs", "anchors": ["include/rad_ml/tmr/physics_driven_protection.hpp:SensitivityBasedResourceAllocator"]}
{"id": "C93", "title": "Multi-scale manager updates each scale at its rate", "statement": "Each call updates exactly the scales whose interval has passed, from the reported environment, never more often than the interval and never staler than it; it returns the highest scale updated; states stay on the 0-10 scale, the factor is at least 1, and no call is undefined.", "quantifier": "all call histories, clocks, environments and materials", "why_tests_cant": "unbounded histories and clock readings", "anchors": ["include/rad_ml/tmr/physics_driven_protection.hpp:MultiScaleProtectionManager"]}
{"id": "C94", "title": "Physics-driven system protects according to layer, environment and mission phase", "statement": "In every reachable state an operation with one faulty execution of three returns the right value; the level is the larger of the allocated and the policy level, highest in the worst environments; mission phase and criticality influence protection; the health-weighted level uses health; checkpoint intervals shrink as conditions worsen and stay within [10 s, 1 h].", "quantifier": "all histories of updates, sensitivities and phases, all layers and operations", "why_tests_cant": "unbounded histories, all operation results", "anchors": ["include/rad_ml/tmr/physics_driven_protection.hpp:PhysicsDrivenProtection"]}
{"id": "C95", "title": "Protected neural layer computes the plain layer", "statement": "For every state of the protection system the forward pass returns the ReLU layer of the last weights and biases set, rejects ill-shaped parameters with an empty result and is defined for every input.", "quantifier": "all layer shapes, element types, inputs, states and setter histories", "why_tests_cant": "all shapes and unbounded histories", "anchors": ["include/rad_ml/tmr/physics_driven_protection.hpp:ProtectedNeuralLayer"]}
{"id": "C96", "title": "Convolutional layer computes the zero-padded convolution", "statement": "For a kernel that fits the padded input the output extents count exactly the window placements; forward never reads outside the input and writes every output element, and nothing else, with bias plus the sum of weight times padded input over the window (in a fixed order for arithmetics that are not associative).", "quantifier": "all channel counts, extents, kernel sizes, strides, paddings, parameters, inputs and element arithmetics", "why_tests_cant": "unbounded dimensions and all parameter values", "anchors": ["include/rad_ml/inference/layers/conv_layer.hpp:forward", "include/rad_ml/inference/layers/conv_layer.hpp:OutputHeight"]}
{"id": "C97", "title": "Parameters of the convolutional layer survive upsets", "statement": "For every history of setWeight, setBias, repair and upsets, a parameter of which at most one copy was struck since it was last set or repaired is used with the value last set; setting a parameter outside the layer is rejected or undefined, nothing else is.", "quantifier": "all histories of updates, strikes with arbitrary values, and repairs; all layer shapes", "why_tests_cant": "unbounded histories", "anchors": ["include/rad_ml/inference/layers/conv_layer.hpp:repair", "include/rad_ml/core/redundancy/tmr.hpp:TripleModularRedundancy"]}
{"id": "C98", "title": "Starting and stopping the scrubbing thread", "statement": "Controlled from one thread, start and stop never terminate the program; when stop has returned no scrub callback runs until the next start; stop waits for at most the pass under way; while started, passes keep coming.", "quantifier": "all histories of calls and all interleavings with the scrubbing thread", "why_tests_cant": "depends on every schedule", "anchors": ["include/rad_ml/core/memory/memory_scrubber.hpp:start", "include/rad_ml/core/memory/memory_scrubber.hpp:stop", "include/rad_ml/core/memory/memory_scrubber.hpp:scrubThreadFunction"]}
{"id": "C99", "title": "Automatic scrubbing of a model", "statement": "With automatic scrubbing enabled the model is repaired periodically until disabled; the model may be read, updated and destroyed as usual meanwhile: reads return the right parameters, updates take effect, destruction is safe.", "quantifier": "all histories of enabling, disabling and destruction, all interleavings of scrubbing with reads and updates", "why_tests_cant": "depends on every schedule", "anchors": ["include/rad_ml/inference/model.hpp:enableAutoScrubbing", "include/rad_ml/inference/model.hpp:disableAutoScrubbing", "include/rad_ml/core/redundancy/tmr.hpp:repair"]}
{"id": "C100", "title": "Power-aware protection stays within the power budget", "statement": "After any history of registrations, updates, removals and power-state changes, whenever the minimum levels of the registered components fit the budget of the power state, the power reported is at most that budget and every component's level lies between its minimum and maximum.", "quantifier": "all histories, all valid components, all budgets and power states, every ordering std::sort may produce", "why_tests_cant": "unbounded numbers of components and histories, all real parameters", "anchors": ["include/rad_ml/power/power_aware_protection.hpp:rebalance_protection_levels", "include/rad_ml/power/power_aware_protection.hpp:calculate_component_power_consumption", "include/rad_ml/power/power_aware_protection.hpp:set_power_state"]}
{"id": "C101", "title": "Power is spent where it protects most", "statement": "With power to spare, protection is bought in the order of criticality-weighted benefit per watt: a less rewarding component is not raised while a more rewarding one can still be; raising stops only when the budget is used up or nothing that matters can be raised.", "quantifier": "all histories, components, budgets", "why_tests_cant": "unbounded numbers of components", "anchors": ["include/rad_ml/power/power_aware_protection.hpp:rebalance_protection_levels", "include/rad_ml/power/power_aware_protection.hpp:calculate_benefit_cost_ratio"]}
{"id": "C102", "title": "Emergency levels when the minimum does not fit", "statement": "When even the minimum levels exceed the budget, components of criticality above 0.7 keep exactly their minimum level, the others get half of it, and the power in use is within the budget.", "quantifier": "all histories that end in shortage", "why_tests_cant": "unbounded numbers of components", "anchors": ["include/rad_ml/power/power_aware_protection.hpp:rebalance_protection_levels", "include/rad_ml/power/power_aware_protection.hpp:get_current_power_consumption"]}
{"id": "C103", "title": "Component registry and history independence of levels", "statement": "Identifiers are never reused; a component is found under its identifier exactly from registration to removal with the configuration last given; updates and removals of unknown identifiers are refused and change nothing; the levels depend only on the registered configuration, budget and power state, not on the history.", "quantifier": "all histories", "why_tests_cant": "unbounded histories", "anchors": ["include/rad_ml/power/power_aware_protection.hpp:register_component", "include/rad_ml/power/power_aware_protection.hpp:update_component", "include/rad_ml/power/power_aware_protection.hpp:remove_component", "include/rad_ml/power/power_aware_protection.hpp:get_component_protection_level"]}
{"id": "C104", "title": "Protection effectiveness and expected error rate", "statement": "The effectiveness is the criticality-weighted mean of the levels as fractions of their ranges, from 0 to 1; the expected error rate is 0 without components, falls when levels rise, and follows the documented reductions.", "quantifier": "all reachable managers", "why_tests_cant": "all real parameters, unbounded numbers of components", "anchors": ["include/rad_ml/power/power_aware_protection.hpp:calculate_protection_effectiveness", "include/rad_ml/power/power_aware_protection.hpp:calculate_expected_error_rate"]}
{"id": "C105", "title": "Diverse execution returns the reliability-weighted consensus", "statement": "execute returns the result with the most summed reliability among the active implementations (0.2 or more); a right result backed by more than half of the reliability is returned whatever the others return or throw; when nobody returns, the most reliable implementation is called again.", "quantifier": "all histories, all sets of implementations, all results and exceptions", "why_tests_cant": "unbounded sets and histories", "anchors": ["include/rad_ml/advanced/algorithmic_diversity.hpp:execute", "include/rad_ml/advanced/algorithmic_diversity.hpp:addImplementation"]}
{"id": "C106", "title": "Reliability scores follow behaviour", "statement": "Scores stay between 0 and 1, an implementation's score changes only by its own failures and by updateReliability, and tends geometrically to 1 (0) under repeated success (failure); the history size set is the number of most recent executions tracked.", "quantifier": "all histories", "why_tests_cant": "unbounded histories", "anchors": ["include/rad_ml/advanced/algorithmic_diversity.hpp:updateReliability", "include/rad_ml/advanced/algorithmic_diversity.hpp:setHistorySize", "include/rad_ml/advanced/algorithmic_diversity.hpp:getReliability"]}
{"id": "C107", "title": "Trained error lookup", "statement": "train accepts exactly non-empty data of matching sizes; a prediction is 0.5 until trained; a detected error and its correction come from the training data and depend on the input.", "quantifier": "all histories, all training data and inputs", "why_tests_cant": "unbounded data", "anchors": ["include/rad_ml/advanced/error_prediction.hpp:train", "include/rad_ml/advanced/error_prediction.hpp:predictErrorProbability", "include/rad_ml/advanced/error_prediction.hpp:correctError"]}
{"id": "C108", "title": "Logger threshold and files", "statement": "The console shows exactly the messages at or above the current threshold in order; with file logging exactly the lines shown from then on are appended to the named file.", "quantifier": "all histories of init, log and close, any outcome of opening files", "why_tests_cant": "unbounded histories", "anchors": ["include/rad_ml/core/logger.hpp:init", "include/rad_ml/core/logger.hpp:log", "include/rad_ml/core/logger.hpp:close"]}
{"id": "C109", "title": "Accelerator execution with software voting", "statement": "With three successful executions every element on which two agree with the right value is right; a failing execution makes the call fail and leaves the output alone; disagreement is not reported as success.", "quantifier": "all accelerators, inputs, buffers and faults", "why_tests_cant": "all buffers and fault patterns", "anchors": ["include/rad_ml/hw/hardware_acceleration.hpp:executeWithTMR", "include/rad_ml/hw/hardware_acceleration.hpp:execute"]}
{"id": "C110", "title": "Accelerator reliability estimate", "statement": "The estimate is a probability, falls with the upset rate, does not fall when protection is added, and with software voting is that of two out of three; initialize keeps the voting that helps.", "quantifier": "all configurations and all real rates", "why_tests_cant": "all real rates", "anchors": ["include/rad_ml/hw/hardware_acceleration.hpp:calculateReliability", "include/rad_ml/hw/hardware_acceleration.hpp:getSystemReliability", "include/rad_ml/hw/hardware_acceleration.hpp:initialize"]}
{"id": "C111", "title": "Learning error predictor", "statement": "Every prediction lies in [0,1]; an observation takes a step of 0.01 along the negative gradient of the cross entropy and moves the prediction at that level strictly towards the observed rate; a fresh predictor is calibrated.", "quantifier": "all networks, levels and observed rates", "why_tests_cant": "all real weights, levels and rates", "anchors": ["include/rad_ml/neural/error_predictor.hpp:predictErrorRate", "include/rad_ml/neural/error_predictor.hpp:updateModel", "include/rad_ml/neural/error_predictor.hpp:initializeWeights"]}
{"id": "C112", "title": "Piecewise error rate prediction", "statement": "The prediction lies in the documented band of its radiation range and never falls as the rate grows.", "quantifier": "all rates", "why_tests_cant": "all rational rates", "anchors": ["include/rad_ml/neural/error_predictor.hpp:predictErrorRate (global scope)"]}
{"id": "C113", "title": "Skip connections of a residual network", "statement": "A skip connection is accepted exactly if it leads forward between existing layers; after any history the list contains exactly the connections added and not removed since, each once, with the projection set last; copies have the same connections; the forward pass incorporates them.", "quantifier": "all histories, all numbers of layers, every traversal order of the map", "why_tests_cant": "unbounded histories, decimal keys of all sizes", "anchors": ["include/rad_ml/research/residual_network.hpp:addSkipConnection", "include/rad_ml/research/residual_network.hpp:removeSkipConnection", "include/rad_ml/research/residual_network.hpp:setSkipProjection", "include/rad_ml/research/residual_network.hpp:getSkipConnections", "include/rad_ml/research/residual_network.hpp:forward"]}
{"id": "C114", "title": "Saving and loading a residual network", "statement": "Loading a saved file restores the network and its skip connections; a load that fails leaves the network unchanged; a file that was not written completely is not accepted.", "quantifier": "all networks, all files, every traversal order, any device size", "why_tests_cant": "all byte strings, unbounded numbers of connections", "anchors": ["include/rad_ml/research/residual_network.hpp:saveToFile", "include/rad_ml/research/residual_network.hpp:loadFromFile", "include/rad_ml/research/residual_network.hpp:saveState"]}
{"id": "C115", "title": "Training and evaluating a residual network", "statement": "The loss is nonnegative and 0 exactly for right outputs; training changes the network; the evaluation is an accuracy between 0 and 1.", "quantifier": "all outputs, labels and epochs", "why_tests_cant": "all real data of any length", "anchors": ["include/rad_ml/research/residual_network.hpp:train", "include/rad_ml/research/residual_network.hpp:evaluate", "include/rad_ml/research/residual_network.hpp:calculateLoss"]}
{"id": "C116", "title": "Radiation flux and upset probability at a position", "statement": "At every position every flux is positive and bounded, the dose is the documented weighted sum, the upset probability is positive and small; more shielding strictly lowers everything, each material is best where documented, solar activity is limited to 0..1 and moves each flux in the documented direction; the heat map has one value per position in order; a new environment has 5 mm of aluminium.", "quantifier": "all missions, histories of settings and flares, positions (real numbers), thicknesses", "why_tests_cant": "real-valued inputs and unbounded histories", "anchors": ["include/rad_ml/neural/radiation_environment.hpp:calculateRadiationFlux", "include/rad_ml/neural/radiation_environment.hpp:calculateSEUProbability", "include/rad_ml/neural/radiation_environment.hpp:setShielding", "include/rad_ml/neural/radiation_environment.hpp:setSolarActivity", "include/rad_ml/neural/radiation_environment.hpp:generateHeatmap"]}
{"id": "C117", "title": "Missions differ as documented", "statement": "Deep-space missions meet more cosmic radiation than near ones, low and medium orbits add the belts and the anomaly, the geostationary orbit lies in the outer belt, and solar missions have intense particle flux.", "quantifier": "all positions and conditions", "why_tests_cant": "inequalities between real functions of position", "anchors": ["include/rad_ml/neural/radiation_environment.hpp:calculateRadiationFlux", "include/rad_ml/neural/radiation_environment.hpp:calculateVanAllenFlux", "include/rad_ml/neural/radiation_environment.hpp:calculateGCRFlux", "include/rad_ml/neural/radiation_environment.hpp:calculateSAAFlux"]}
{"id": "C118", "title": "Positions: distances and orbits", "statement": "The distance between two positions is a metric made of the great-circle distance and the altitude difference; positions on an orbit keep the altitude, stay within the inclination and the longitude range, and repeat their latitude after a Kepler period.", "quantifier": "all positions, altitudes, inclinations and times", "why_tests_cant": "trigonometric identities and the triangle inequality over the reals", "anchors": ["include/rad_ml/neural/radiation_environment.hpp:distanceTo", "include/rad_ml/neural/radiation_environment.hpp:generateOrbitPosition", "include/rad_ml/neural/radiation_environment.hpp:calculateOrbitPeriod"]}
{"id": "C119", "title": "Solar flares", "statement": "A simulated flare raises the activity within 0..1, multiplies the flux by the factor it returns, and is temporary.", "quantifier": "all intensities, environments and later calls", "why_tests_cant": "histories after the flare are unbounded", "anchors": ["include/rad_ml/neural/radiation_environment.hpp:simulateSolarFlare"]}
{"id": "C120", "title": "Testing one architecture", "statement": "Every test of an architecture that has weights gives a result in range (baseline 50..99, radiation accuracy at most the baseline, preservation their ratio, detected errors = corrected + uncorrectable); stronger protection loses strictly less and never detects fewer errors; the result is measured on the data given.", "quantifier": "all architectures, dropouts, levels, environments, random draws and data", "why_tests_cant": "unbounded layer lists, real-valued formulas", "anchors": ["include/rad_ml/research/architecture_tester.hpp:testArchitecture", "src/rad_ml/research/architecture_tester.cpp:testArchitecture"]}
{"id": "C121", "title": "Best architecture and dropout", "statement": "If results for an environment were recorded, the architecture and dropout returned belong to one with the highest preservation there; otherwise the defaults are returned.", "quantifier": "all recorded results in any order", "why_tests_cant": "unbounded histories; the comparison passed to max_element is not an ordering", "anchors": ["include/rad_ml/research/architecture_tester.hpp:getBestArchitecture", "include/rad_ml/research/architecture_tester.hpp:getOptimalDropout"]}
{"id": "C122", "title": "Monte Carlo tests", "statement": "The result of a Monte Carlo test carries the mean and standard deviation over its trials, stays in the ranges of single tests, and each trial has its own seed, shifted by the offset given.", "quantifier": "all numbers of trials, architectures and draws", "why_tests_cant": "unbounded numbers of trials, 64-bit seed arithmetic", "anchors": ["include/rad_ml/research/architecture_tester.hpp:testArchitectureMonteCarlo", "src/rad_ml/research/architecture_tester.cpp:calculateMonteCarloStatistics"]}
{"id": "C123", "title": "Width and dropout ranges", "statement": "A range test records a result for each width or dropout rate in the range.", "quantifier": "all ranges and steps", "why_tests_cant": "unbounded ranges", "anchors": ["include/rad_ml/research/architecture_tester.hpp:testWidthRange", "include/rad_ml/research/architecture_tester.hpp:testDropoutRange"]}
{"id": "C124", "title": "Results file of the architecture tester", "statement": "The file starts with the header, nothing in it is lost, and every recorded result is in it once, with full precision.", "quantifier": "all histories of calls and earlier contents", "why_tests_cant": "unbounded histories", "anchors": ["include/rad_ml/research/architecture_tester.hpp:saveResultsToFile"]}
{"id": "C125", "title": "Search space of the architecture search", "statement": "The configurations searched are exactly the combinations of the offered widths, dropouts, protection levels and residual connections with the set input, output and depth; every one of them can be drawn at random.", "quantifier": "all option lists, depths and random numbers", "why_tests_cant": "unbounded option lists and depths", "anchors": ["include/rad_ml/research/auto_arch_search.hpp:AutoArchSearch", "src/rad_ml/research/auto_arch_search.cpp:generateAllConfigs"]}
{"id": "C126", "title": "Comparing network configurations", "statement": "Two configurations compare equal only if they are the same, and the order used by the map of tested configurations is a strict weak order that agrees with equality.", "quantifier": "all pairs and triples of configurations", "why_tests_cant": "quantifies over all real dropout rates", "anchors": ["include/rad_ml/research/auto_arch_search.hpp:NetworkConfig::operator==", "include/rad_ml/research/auto_arch_search.hpp:NetworkConfig::operator<"]}
{"id": "C127", "title": "Grid search", "statement": "The grid search tests every configuration of the grid, reports one of the highest accuracy preservation with its own test result, counts the grid, and keeps all results for look-up.", "quantifier": "all option lists, environments, random draws and earlier results", "why_tests_cant": "unbounded grids", "anchors": ["include/rad_ml/research/auto_arch_search.hpp:findOptimalArchitecture"]}
{"id": "C128", "title": "Random search", "statement": "The random search returns after testing exactly the number of new configurations asked for, never one tested before, and reports the one of highest preservation among them.", "quantifier": "all options, random number streams, iteration counts and earlier results", "why_tests_cant": "termination and unbounded random streams", "anchors": ["include/rad_ml/research/auto_arch_search.hpp:randomSearch"]}
{"id": "C129", "title": "Evolutionary search", "statement": "The evolutionary search returns for every stream of random numbers; every individual ever produced is made of the offered options, the best individual of a generation survives into the next, and the configuration reported has the highest preservation of all that were tested.", "quantifier": "all options, population sizes, generations, mutation rates and random streams", "why_tests_cant": "unbounded generations and random streams", "anchors": ["include/rad_ml/research/auto_arch_search.hpp:evolutionarySearch", "src/rad_ml/research/auto_arch_search.cpp:crossoverConfigs"]}
{"id": "C130", "title": "Radiation-aware training", "statement": "Training rejects data that do not fit the network without changing anything; otherwise each epoch presents every sample exactly once, in order, and the network learns.", "quantifier": "all networks, data, configurations and random streams", "why_tests_cant": "unbounded epochs, data and random streams", "anchors": ["src/rad_ml/research/radiation_aware_training.cpp:train"]}
{"id": "C131", "title": "Bit flips injected during training", "statement": "An injection flips at most one bit of each weight and bias, with the configured probability scaled by the environment and the criticality of the weight, keeps the shape of the network, and counts every flip.", "quantifier": "all networks, trainers and random streams", "why_tests_cant": "unbounded networks and random streams", "anchors": ["src/rad_ml/research/radiation_aware_training.cpp:injectRadiationEffects"]}
{"id": "C132", "title": "Criticality map", "statement": "The criticality map rates the weights of the network between 0 and 1 by their effect on the loss and leaves the network as it was.", "quantifier": "all networks, data, earlier maps and random streams", "why_tests_cant": "unbounded networks and random streams", "anchors": ["src/rad_ml/research/radiation_aware_training.cpp:updateCriticalityMap"]}
{"id": "C133", "title": "Statistics of radiation-aware training", "statement": "The flips reported are those made; the accuracy drop and recovery reported are averages over the injections of the training.", "quantifier": "all networks, data, configurations and random streams", "why_tests_cant": "unbounded epochs and random streams", "anchors": ["src/rad_ml/research/radiation_aware_training.cpp:train"]}
{"id": "C134", "title": "Saved training results", "statement": "Saving writes the settings, the statistics and one labelled line for every weight of the criticality map, and reports success exactly if it did.", "quantifier": "all trainers and file systems", "why_tests_cant": "quantifies over all maps and device states", "anchors": ["src/rad_ml/research/radiation_aware_training.cpp:saveResults"]}
{"id": "C135", "title": "Predefined radiation environments", "statement": "A predefined environment has the type and the name of its kind and a positive flux, harsher places having higher fluxes; custom properties read as last set.", "quantifier": "all environment types, property names and values", "why_tests_cant": "all histories of settings", "anchors": ["include/rad_ml/radiation/environment.hpp:createEnvironment", "include/rad_ml/radiation/environment.hpp:setProperty", "include/rad_ml/radiation/environment.hpp:getProperty"]}
{"id": "C136", "title": "Environment at a time of a mission", "statement": "At any time of a mission the environment returned is that of the one phase running then; phases follow each other in the order added, and after the last its environment stays.", "quantifier": "all missions and all times", "why_tests_cant": "unbounded phases and times", "anchors": ["include/rad_ml/radiation/space_mission.hpp:getEnvironmentAtTime", "include/rad_ml/radiation/space_mission.hpp:addPhase"]}
{"id": "C137", "title": "Worst case and exposure of a mission", "statement": "The worst case environment is that of a phase and has the highest flux of all; the exposure is the sum over the phases of flux times duration.", "quantifier": "all missions", "why_tests_cant": "unbounded phases, all orders of fluxes", "anchors": ["include/rad_ml/radiation/space_mission.hpp:getWorstCaseEnvironment", "include/rad_ml/radiation/space_mission.hpp:calculateTotalRadiationExposure"]}
{"id": "C138", "title": "Standard missions", "statement": "Every standard mission is usable: named, beginning with a launch, all its phases with a positive duration and an environment of its own suited to the target.", "quantifier": "all targets, names and later changes of environments", "why_tests_cant": "later changes through shared environments", "anchors": ["include/rad_ml/radiation/space_mission.hpp:createStandardMission"]}
{"id": "C139", "title": "Encoding of a variational autoencoder", "statement": "encode() accepts exactly inputs of the input size and answers with as many means and logarithms of variances as there are latent dimensions, the latter between -10 and 10; preprocessing keeps the size and standardizes to mean 0 and at most unit variance; different inputs can be told apart.", "quantifier": "all dimensions, hidden layers, inputs, radiation levels and earlier calls", "why_tests_cant": "all inputs and histories", "anchors": ["src/rad_ml/research/variational_autoencoder.cpp:encode", "src/rad_ml/research/variational_autoencoder.cpp:applyLogarithmics", "src/rad_ml/research/variational_autoencoder.cpp:applyStandardization"]}
{"id": "C140", "title": "Sampling of latent vectors", "statement": "sample() gives one number per latent dimension, mean plus standard deviation times a normal draw; the same non-zero seed gives the same sample; every sampling technique offered is implemented and seeds differ.", "quantifier": "all means, variances, seeds and techniques", "why_tests_cant": "all seeds and vectors", "anchors": ["src/rad_ml/research/variational_autoencoder.cpp:sample"]}
{"id": "C141", "title": "Decoding, reconstruction and generation", "statement": "decode() accepts exactly latent vectors of the right size; decode(), forward() and generate() give vectors of the input size, generate() as many as asked for and reproducibly for a non-zero seed; the logarithmic transformation is inverted exactly; every input can be reconstructed.", "quantifier": "all autoencoders reachable by calls, vectors, counts, seeds and levels", "why_tests_cant": "all histories of calls", "anchors": ["src/rad_ml/research/variational_autoencoder.cpp:decode", "src/rad_ml/research/variational_autoencoder.cpp:forward", "src/rad_ml/research/variational_autoencoder.cpp:generate", "src/rad_ml/research/variational_autoencoder.cpp:applyInverseLogarithmics"]}
{"id": "C142", "title": "Interpolation", "statement": "interpolate() gives a vector of the input size; at 0 it gives the decoding of the first vector, at 1 that of the second, in between a vector decoded from the blend.", "quantifier": "all pairs of latent vectors, weights and levels", "why_tests_cant": "all vectors and weights", "anchors": ["src/rad_ml/research/variational_autoencoder.cpp:interpolate"]}
{"id": "C143", "title": "Losses and gradients of the autoencoder", "statement": "The divergence is never negative and 0 exactly for the standard normal distribution, the reconstruction loss is the mean square error, 0 exactly for equal vectors; the gradients are their derivatives; the total is reconstruction plus weighted divergence plus weighted interpolation loss.", "quantifier": "all vectors and configurations", "why_tests_cant": "all real vectors", "anchors": ["src/rad_ml/research/variational_autoencoder.cpp:computeKLDivergence", "src/rad_ml/research/variational_autoencoder.cpp:computeReconstructionLoss", "src/rad_ml/research/variational_autoencoder.cpp:computeInterpolationLoss", "src/rad_ml/research/variational_autoencoder.cpp:computeEncoderGradients", "src/rad_ml/research/variational_autoencoder.cpp:computeDecoderGradients", "src/rad_ml/research/variational_autoencoder.cpp:calculateLoss"]}
{"id": "C144", "title": "Splitting data and making batches", "statement": "The split puts each datum into exactly one part in the configured share; the batches hold the data in order, none empty and none longer than the batch size.", "quantifier": "all data, shares and batch sizes", "why_tests_cant": "unbounded data, all sizes", "anchors": ["src/rad_ml/research/variational_autoencoder.cpp:splitTrainValidation", "src/rad_ml/research/variational_autoencoder.cpp:createBatches"]}
{"id": "C145", "title": "Metrics of production training", "statement": "trainProduction() with valid data returns; the metrics have one entry per epoch run, the best validation loss is that of the best epoch, training stops exactly when the patience is used up.", "quantifier": "all data, configurations and earlier calls", "why_tests_cant": "unbounded epochs and data", "anchors": ["src/rad_ml/research/variational_autoencoder.cpp:trainProduction"]}
{"id": "C146", "title": "Effect of training", "statement": "Training changes the networks so as to lower the loss, and train() reports the mean loss of the batches of the last epoch.", "quantifier": "all data, epochs, batch sizes and learning rates", "why_tests_cant": "all training runs", "anchors": ["src/rad_ml/research/variational_autoencoder.cpp:train", "src/rad_ml/research/variational_autoencoder.cpp:trainProduction", "src/rad_ml/research/variational_autoencoder.cpp:updateWeights", "src/rad_ml/research/variational_autoencoder.cpp:updateParameters"]}
{"id": "C147", "title": "Protection of latent variables", "statement": "Latent variables are voted from three copies; undamaged vectors come back unchanged, a damaged copy is outvoted, and the corrections counted are corrections.", "quantifier": "all latent vectors, radiation levels and draws", "why_tests_cant": "all vectors and random draws", "anchors": ["src/rad_ml/research/variational_autoencoder.cpp:protectLatentVariables"]}
{"id": "C148", "title": "Statistics and copies of the autoencoder", "statement": "Statistics are the sum over the three networks and the latent protection, reset puts all to 0; a copy behaves like the original and reports the same.", "quantifier": "all autoencoders and later calls", "why_tests_cant": "all continuations", "anchors": ["src/rad_ml/research/variational_autoencoder.cpp:getErrorStats", "src/rad_ml/research/variational_autoencoder.cpp:resetErrorStats", "src/rad_ml/research/variational_autoencoder.cpp:applyRadiationEffects", "src/rad_ml/research/variational_autoencoder.cpp:operator="]}
{"id": "C149", "title": "Files of the autoencoder", "statement": "A file written by saveToFile() or saveModel() can be read by loadFromFile() or loadModel(), giving the same autoencoder; a missing or damaged file is refused leaving the object as it was.", "quantifier": "all autoencoders and all files", "why_tests_cant": "all byte strings", "anchors": ["src/rad_ml/research/variational_autoencoder.cpp:saveToFile", "src/rad_ml/research/variational_autoencoder.cpp:loadFromFile", "src/rad_ml/research/variational_autoencoder.cpp:saveModel", "src/rad_ml/research/variational_autoencoder.cpp:loadModel"]}
{"id": "C150", "title": "Event rates of RadiationSimulator", "statement": "The rates of the four kinds are positive and sum to the total; the total grows with solar activity, altitude, inclination and in the South Atlantic Anomaly, and falls with shielding; the predefined missions have sensible environments, a harsher place a higher rate.", "quantifier": "all environments with non-negative altitude, inclination and solar activity", "why_tests_cant": "all real parameters", "anchors": ["include/rad_ml/testing/radiation_simulator.hpp:calculateBaseRate", "include/rad_ml/testing/radiation_simulator.hpp:updateRates", "include/rad_ml/testing/radiation_simulator.hpp:getMissionEnvironment"]}
{"id": "C151", "title": "Simulated radiation effects on memory", "statement": "simulateEffects() returns the events it drew; each lies inside the region and changed one byte as its kind says, and no other byte changes; every region and duration is accepted or refused safely.", "quantifier": "all environments, regions, durations and random draws", "why_tests_cant": "all memory contents and random sequences", "anchors": ["include/rad_ml/testing/radiation_simulator.hpp:simulateEffects", "include/rad_ml/testing/radiation_simulator.hpp:generateRandomEvent"]}
{"id": "C152", "title": "Kinds of simulated events", "statement": "The kind of an event is drawn with the probability of its share in the total rate.", "quantifier": "all environments and all numbers drawn", "why_tests_cant": "all random numbers", "anchors": ["include/rad_ml/testing/radiation_simulator.hpp:generateRandomEvent"]}
{"id": "C153", "title": "Standard mission profiles", "statement": "createStandard() gives for every name a profile with at least one environment, a positive duration and probability for each, probabilities summing to 1 and distinct names; a name not known is not taken for another mission.", "quantifier": "all strings", "why_tests_cant": "all strings", "anchors": ["include/rad_ml/testing/mission_simulator.hpp:MissionProfile::createStandard", "include/rad_ml/testing/mission_simulator.hpp:AdaptiveProtectionConfig::createStandard"]}
{"id": "C154", "title": "Changes of environment in a mission", "statement": "A new environment is selected with its probability, from the profile; the callback is called exactly when the environment changes, with the new one.", "quantifier": "all profiles, random draws and runs", "why_tests_cant": "all random sequences and unbounded runs", "anchors": ["include/rad_ml/testing/mission_simulator.hpp:selectNextEnvironment", "include/rad_ml/testing/mission_simulator.hpp:runSimulation"]}
{"id": "C155", "title": "Time in a simulated mission", "statement": "runSimulation() ends after the least number of steps covering the duration, adds each step to the time of the environment of the profile it was spent in, keeps an environment for its duration unless a change is drawn, and returns for every profile, duration and step.", "quantifier": "all profiles, durations, steps, registered regions and random draws", "why_tests_cant": "unbounded runs", "anchors": ["include/rad_ml/testing/mission_simulator.hpp:runSimulation", "include/rad_ml/testing/mission_simulator.hpp:MissionSimulator"]}
{"id": "C156", "title": "Statistics of a simulated mission", "statement": "At any time the number of events is the sum over kinds, over environments and of detected and undetected errors; corrected errors and votes are among the detected ones; counters never fall; unprotected memory detects nothing; sizes are those of the registered regions.", "quantifier": "all histories of registrations, runs and environment updates", "why_tests_cant": "all histories", "anchors": ["include/rad_ml/testing/mission_simulator.hpp:runSimulation", "include/rad_ml/testing/mission_simulator.hpp:registerMemoryRegion", "include/rad_ml/testing/mission_simulator.hpp:MissionStatistics"]}
{"id": "C157", "title": "Mission-critical uptime", "statement": "The uptime lies between 0 and 1, and is the share of errors dealt with: 1 for a mission without errors, lower the more errors were missed.", "quantifier": "all histories of runs", "why_tests_cant": "all histories", "anchors": ["include/rad_ml/testing/mission_simulator.hpp:runSimulation", "include/rad_ml/testing/mission_simulator.hpp:avg_mission_critical_uptime"]}
{"id": "C158", "title": "Adaptive protection level", "statement": "Without adaptation the level is medium; with it, it rises with the radiation through the three thresholds, and the energy budget is respected; intense environments of the standard missions get the high level.", "quantifier": "all configurations, environments and standard missions", "why_tests_cant": "all real rates and all names", "anchors": ["include/rad_ml/testing/mission_simulator.hpp:determineProtectionLevel", "include/rad_ml/testing/mission_simulator.hpp:AdaptiveProtectionConfig"]}
{"id": "C159", "title": "Scrubbing and correction in a simulated mission", "statement": "Scrubbing is performed at the configured intervals; memory is changed only by the counted events, and an error counted as corrected is corrected: protected memory ends up less damaged.", "quantifier": "all configurations, regions, runs and random draws", "why_tests_cant": "unbounded runs", "anchors": ["include/rad_ml/testing/mission_simulator.hpp:runSimulation"]}
{"id": "C160", "title": "Quantum fields on a lattice", "statement": "A field with the right number of positive dimensions is created with 0 everywhere, all other dimensions are refused; what is written at a lattice point is read there and changes no other point; positions outside the lattice are refused.", "quantifier": "all dimensions, particle types, positions and values", "why_tests_cant": "all lattices and values", "anchors": ["include/rad_ml/physics/quantum_field_theory.hpp:QuantumField", "src/rad_ml/physics/quantum_field_theory.cpp:getFieldAt", "src/rad_ml/physics/quantum_field_theory.cpp:setFieldAt"]}
{"id": "C161", "title": "Initial states of quantum fields", "statement": "A coherent state has the given phase and the given amplitude under a Gaussian envelope around the centre; a Gaussian state takes independent numbers for each point; a created particle field starts in the state of its type.", "quantifier": "all lattices, amplitudes, phases, means, deviations and random numbers", "why_tests_cant": "all real parameters and lattices", "anchors": ["src/rad_ml/physics/quantum_field_theory.cpp:initializeCoherentState", "src/rad_ml/physics/quantum_field_theory.cpp:initializeGaussian", "src/rad_ml/physics/quantum_models.cpp:createParticleField"]}
{"id": "C162", "title": "Energy of a quantum field", "statement": "The total energy is the kinetic energy of finite differences plus the mass term, is never negative, is 0 only for the zero field, has no kinetic part for a uniform field, and is defined for every particle type.", "quantifier": "all fields, parameters and particle types", "why_tests_cant": "all lattices and values", "anchors": ["src/rad_ml/physics/quantum_field_theory.cpp:calculateTotalEnergy", "include/rad_ml/physics/quantum_field_theory.hpp:getMass"]}
{"id": "C163", "title": "Free evolution of a quantum field", "statement": "Evolving turns the phase of every value by omega times the time step and damps it, step by step; the energy falls by the square of the damping; the correlation function describes the field.", "quantifier": "all fields, parameters and numbers of steps", "why_tests_cant": "unbounded steps", "anchors": ["src/rad_ml/physics/quantum_field_theory.cpp:evolve", "src/rad_ml/physics/quantum_field_theory.cpp:calculateCorrelationFunction"]}
{"id": "C164", "title": "Klein-Gordon and Dirac equations", "statement": "An equation evolves fields of its own particle type and refuses others; a Klein-Gordon step dissipates energy; a Dirac step evolves the field; the propagators depend on momentum and mass.", "quantifier": "all fields, parameters, types and numbers of steps", "why_tests_cant": "unbounded steps and all values", "anchors": ["src/rad_ml/physics/quantum_field_theory.cpp:KleinGordonEquation::evolveField", "src/rad_ml/physics/quantum_field_theory.cpp:DiracEquation::evolveField", "src/rad_ml/physics/quantum_field_theory.cpp:calculatePropagator"]}
{"id": "C165", "title": "Maxwell equations and interacting fields", "statement": "A Maxwell step mixes two photon fields on one lattice symmetrically and scales them by a bounded factor, and refuses all others without changing them; an interaction runs the given number of steps of each field's equation and returns every field's change of energy.", "quantifier": "all lists of fields, parameters and numbers of steps", "why_tests_cant": "all lattices, values and lists", "anchors": ["src/rad_ml/physics/quantum_field_theory.cpp:MaxwellEquations::evolveField", "src/rad_ml/physics/quantum_models.cpp:simulateMultiParticleInteraction"]}
{"id": "C166", "title": "Tunnelling probability", "statement": "The tunnelling probability is a probability, combines tunnelling through and thermal crossing over the barrier, rises with temperature and falls with barrier and mass; unknown particle types are refused.", "quantifier": "all barriers, masses, temperatures, parameters and particle types", "why_tests_cant": "all real parameters", "anchors": ["src/rad_ml/physics/quantum_field_theory.cpp:calculateQuantumTunnelingProbability"]}
{"id": "C167", "title": "Zero-point energy and defect energy", "statement": "The zero-point energy is that of an oscillator of the lattice, positive, and falls with mass, lattice constant and temperature; it lowers the formation energy of a defect by a physically plausible amount.", "quantifier": "all masses, lattices and temperatures", "why_tests_cant": "all real parameters", "anchors": ["src/rad_ml/physics/quantum_field_theory.cpp:calculateZeroPointEnergyContribution", "src/rad_ml/physics/quantum_field_theory.cpp:calculateQuantumCorrectedDefectEnergy"]}
{"id": "C168", "title": "Quantum corrections of defects", "statement": "Exactly the defects of the particle types asked for (or present) are multiplied by factors between 1 and a thermal limit, all others stay; unknown types are refused.", "quantifier": "all distributions, lists of types, parameters and temperatures", "why_tests_cant": "all maps and lists of regions", "anchors": ["src/rad_ml/physics/quantum_field_theory.cpp:applyQuantumFieldCorrections"]}
{"id": "C169", "title": "Displacement cascades", "statement": "An impact above the displacement energy makes 0.8 times the energy ratio, rounded down, defects of the particle type and none of other types; below it makes none.", "quantifier": "all energies and particle types", "why_tests_cant": "all real energies", "anchors": ["src/rad_ml/physics/quantum_models.cpp:simulateDisplacementCascade"]}
{"id": "C170", "title": "Displacement energy", "statement": "The displacement energy depends on lattice type and particle type, is positive and plausible for silicon.", "quantifier": "all lattices, parameters and particle types", "why_tests_cant": "all real parameters", "anchors": ["src/rad_ml/physics/quantum_models.cpp:calculateDisplacementEnergy"]}
{"id": "C171", "title": "Decoherence and transitions", "statement": "The decoherence rate is positive and grows with temperature and defects; the transition probability is a probability, grows with energy and falls with temperature.", "quantifier": "all rates, distributions, temperatures and energies", "why_tests_cant": "all real parameters", "anchors": ["src/rad_ml/physics/quantum_models.cpp:calculateQuantumDecoherence", "src/rad_ml/physics/quantum_models.cpp:calculateQuantumTransitionProbability"]}
{"id": "C172", "title": "Charge deposited by a particle", "statement": "The charge deposited lies between 0.9 times the classical charge and the classical charge raised by the ratio of thermal energy to band gap, depends on energy, LET and particle type, and unknown types are refused.", "quantifier": "all materials, energies, LET values and particle types", "why_tests_cant": "all real parameters", "anchors": ["src/rad_ml/physics/quantum_enhanced_radiation.cpp:calculateQuantumChargeDeposition"]}
{"id": "C173", "title": "Temperature-corrected critical charge", "statement": "The critical charge never falls below half its base value, stays within its linear temperature dependence, grows with the base and is lowered more by tunnelling at lower temperatures.", "quantifier": "all materials, base charges and temperatures", "why_tests_cant": "all real parameters", "anchors": ["src/rad_ml/physics/quantum_enhanced_radiation.cpp:calculateTemperatureCriticalCharge"]}
{"id": "C174", "title": "Device sensitivity", "statement": "The sensitivity is that of the kind of device, raised by confinement for features below 100 nm, and never falls when features shrink; it changes gradually.", "quantifier": "all materials, devices and feature sizes", "why_tests_cant": "all real sizes", "anchors": ["src/rad_ml/physics/quantum_enhanced_radiation.cpp:calculateDeviceSensitivity"]}
{"id": "C175", "title": "Bit-flip probability", "statement": "The bit-flip probability is a probability, 0 without charge, otherwise a Weibull function of the ratio of charge to the device's critical charge, and never falls with charge.", "quantifier": "all materials, charges, devices and temperatures", "why_tests_cant": "all real parameters", "anchors": ["src/rad_ml/physics/quantum_enhanced_radiation.cpp:calculateEnhancedBitFlipProbability"]}
{"id": "C176", "title": "Size of multi-bit upsets", "statement": "The number of bits upset is between 1 and 8, 1 below twice the critical charge, never falls with charge, and is largest for heavy ions and smallest for protons.", "quantifier": "all materials, charges and particle types", "why_tests_cant": "all real charges", "anchors": ["src/rad_ml/physics/quantum_enhanced_radiation.cpp:calculateQuantumMBUSize"]}
{"id": "C177", "title": "Radiation applied to memory", "statement": "Applying radiation keeps the memory size, inverts runs of adjacent bits inside single bytes, reports how many bits it inverted, does nothing for null or empty memory or particles without energy transfer, and scales with duration down to 0.", "quantifier": "all memories, particles, devices, durations and random numbers", "why_tests_cant": "unbounded memory, impacts and random streams", "anchors": ["src/rad_ml/physics/quantum_enhanced_radiation.cpp:applyQuantumEnhancedRadiation"]}
{"id": "C178", "title": "Metrics of a protection trial", "statement": "The metrics of a trial are the error rate per bit, the cross section, the share of uncorrected errors and the mean time between failures; a trial without errors has rate 0 and an infinite mean time.", "quantifier": "all numbers of corrections, errors and events", "why_tests_cant": "unbounded counters", "anchors": ["src/testing/protection_techniques.cpp:calculateMetrics"]}
{"id": "C179", "title": "Verification report", "statement": "Each environment gets its own assessment, validation and suitability verdict from its own trials and one evaluation per technique; it passes its assessment exactly if rate and correction rate meet the thresholds and its validation exactly if the rate is near the reference; the overall verdict is that every entry passes.", "quantifier": "all environments, techniques, trials and fault patterns", "why_tests_cant": "unbounded lists of environments and trials", "anchors": ["src/validation/nasa_esa_validation_protocol.cpp:runComprehensiveVerification", "src/validation/nasa_esa_validation_protocol.cpp:determineOverallCompliance"]}
{"id": "C180", "title": "Verdict of the verification", "statement": "The overall verdict distinguishes protections that meet the requirements from those that do not, and nothing is declared compliant without a test.", "quantifier": "all environments, techniques, trials and fault patterns", "why_tests_cant": "unbounded lists of environments and trials", "anchors": ["src/validation/nasa_esa_validation_protocol.cpp:runComprehensiveVerification", "src/validation/nasa_esa_validation_protocol.cpp:determineOverallCompliance"]}
{"id": "C181", "title": "Evaluation of protection techniques", "statement": "A technique passes exactly if the effectiveness measured in the trials is at least 95 % and its overheads stay within 50, 100 and 30 %.", "quantifier": "all techniques and trials", "why_tests_cant": "all trials", "anchors": ["src/validation/nasa_esa_validation_protocol.cpp:evaluateProtectionTechnique"]}
{"id": "C182", "title": "Attainable thresholds", "statement": "For each environment there are measurements that pass both the radiation assessment and the validation against the reference models.", "quantifier": "all environments and measurements", "why_tests_cant": "all lists of measurements", "anchors": ["src/validation/nasa_esa_validation_protocol.cpp:getReferenceModelData", "src/validation/nasa_esa_validation_protocol.hpp:getNASASEUThresholds"]}
{"id": "C183", "title": "Required shielding and modifications", "statement": "Shielding is 5 mm scaled by the factors by which rate and LET threshold miss the requirements, never less; each modification is required exactly if its criterion is missed.", "quantifier": "all environments and measured values", "why_tests_cant": "all real values", "anchors": ["src/validation/nasa_esa_validation_protocol.cpp:calculateRequiredShielding", "src/validation/nasa_esa_validation_protocol.cpp:calculateRequiredModifications"]}
{"id": "C184", "title": "Correlation and percent difference", "statement": "The correlation of two values lies in 0..1, is symmetric and is 1 exactly for equal values; the percent difference is 100 times the relative error.", "quantifier": "all values", "why_tests_cant": "all real numbers", "anchors": ["src/validation/nasa_esa_validation_protocol.cpp:calculateCorrelation", "src/validation/nasa_esa_validation_protocol.cpp:calculatePercentDifference"]}
{"id": "C185", "title": "Solar and shielding factors", "statement": "The solar factor stays within fixed positive bounds and is 1 in a storm; the shielding factor lies between 0.01 and 1, is 1 without shielding and never grows with thickness.", "quantifier": "all environments, activities and thicknesses", "why_tests_cant": "all real parameters", "anchors": ["include/rad_ml/sim/physics_radiation_simulator.hpp:calculate_solar_modifier", "include/rad_ml/sim/physics_radiation_simulator.hpp:calculate_shielding_factor"]}
{"id": "C186", "title": "Error rates of the physics simulator", "statement": "After every history of configuration calls the rate of each effect is its base rate times the factors of the environment, activity and shielding set last; it is positive and more shielding never raises it.", "quantifier": "all histories of configuration calls and all effects", "why_tests_cant": "unbounded histories", "anchors": ["include/rad_ml/sim/physics_radiation_simulator.hpp:get_error_rates", "include/rad_ml/sim/physics_radiation_simulator.hpp:set_environment", "include/rad_ml/sim/physics_radiation_simulator.hpp:set_solar_activity", "include/rad_ml/sim/physics_radiation_simulator.hpp:set_shielding", "include/rad_ml/sim/physics_radiation_simulator.hpp:set_trajectory"]}
{"id": "C187", "title": "Events of a period", "statement": "A simulated period contains, kind by kind, as many events as drawn, each affecting a number of bits in the range of its kind and no more than the memory has; an empty period has no events.", "quantifier": "all states, durations and random numbers", "why_tests_cant": "unbounded number of events", "anchors": ["include/rad_ml/sim/physics_radiation_simulator.hpp:simulate_period"]}
{"id": "C188", "title": "Mission timeline", "statement": "Simulating a mission gives exactly one entry per segment of the trajectory, in order, counting the events of that segment, for every trajectory, and leaves the configuration as it was.", "quantifier": "all trajectories, states and random numbers", "why_tests_cant": "unbounded trajectories", "anchors": ["include/rad_ml/sim/physics_radiation_simulator.hpp:simulate_mission", "include/rad_ml/sim/physics_radiation_simulator.hpp:SpacecraftTrajectory"]}
{"id": "C189", "title": "Total dose of a mission", "statement": "The dose simulation covers exactly the given number of days, or the trajectory if shorter, counts what is drawn for each segment and leaves the configuration as it was.", "quantifier": "all trajectories, durations and random numbers", "why_tests_cant": "unbounded trajectories", "anchors": ["include/rad_ml/sim/physics_radiation_simulator.hpp:simulate_mission_tid"]}
{"id": "C190", "title": "Shielding by kind of effect", "statement": "Shielding attenuates dose effects more strongly than single-event effects.", "quantifier": "all reached states, effects and thicknesses", "why_tests_cant": "all histories and real thicknesses", "anchors": ["include/rad_ml/sim/physics_radiation_simulator.hpp:calculate_shielding_factor", "include/rad_ml/sim/physics_radiation_simulator.hpp:get_error_rates"]}
{"id": "C191", "title": "Environment tables", "statement": "Radiation levels lie in (0, 1]; a higher level never means a lower bit error rate or smaller upsets, and the conditions reported for a place are its own.", "quantifier": "all environments", "why_tests_cant": "relations between all pairs of environments", "anchors": ["src/rad_ml/sim/environment.cpp:getRadiationLevel", "src/rad_ml/sim/environment.cpp:getBitErrorRate", "src/rad_ml/sim/environment.cpp:getExpectedMCUSize", "src/rad_ml/sim/environment.cpp:getRadiationEnvironment"]}
{"id": "C192", "title": "Multi-bit upsets applied to values", "statement": "applyMultiBitErrors changes a value only within its pattern: exactly one bit, two or three adjacent bits, bits of one byte, the same bit of several bytes or arbitrary bits; without a hit nothing changes, with a hit something does; for values of every size.", "quantifier": "all values, sizes, rates, patterns and random numbers", "why_tests_cant": "all values and random streams", "anchors": ["include/rad_ml/neural/multibit_protection.hpp:applyMultiBitErrors"]}
{"id": "C193", "title": "TMR-protected weights", "statement": "After setValue(v) damage to one of the three copies is masked by every way of reading the weight, whatever happens to the inherited object.", "quantifier": "all values, histories of construction and damages", "why_tests_cant": "all values and damages", "anchors": ["include/rad_ml/neural/multibit_protection.hpp:TripleModularRedundancy"]}
{"id": "C194", "title": "Adaptive TMR weights", "statement": "After every history of writes, reads, thresholds and radiation levels a read returns the value written last; protection is on exactly if the level reaches the threshold; one damaged copy never shows.", "quantifier": "all histories of calls and all damages", "why_tests_cant": "unbounded histories", "anchors": ["include/rad_ml/neural/multibit_protection.hpp:AdaptiveTMRProtection"]}
{"id": "C195", "title": "Space-optimised weights", "statement": "After setValue(v) damage to one replica is masked; correctErrors restores all replicas; an error is reported exactly if a replica contradicts its checksum, and stays reported until corrected.", "quantifier": "all values, replicas and damages", "why_tests_cant": "all values and damages", "anchors": ["include/rad_ml/neural/multibit_protection.hpp:SpaceOptimizedProtection"]}
{"id": "C196", "title": "Stuck-bit TMR of floating-point values", "statement": "For every sequence of strikes, one per repair, the value read and all repaired copies equal the value set; without a majority the healthiest copy is returned; health scores stay within 0.1 and 1.", "quantifier": "all sequences of strikes and repairs", "why_tests_cant": "unbounded sequences", "anchors": ["include/rad_ml/tmr/enhanced_stuck_bit_tmr.hpp:EnhancedStuckBitTMR<float>", "include/rad_ml/tmr/enhanced_stuck_bit_tmr.hpp:EnhancedStuckBitTMR<double>"]}
{"id": "C197", "title": "SimpleTMR of the Python bindings", "statement": "correct() reports and repairs exactly the states with one deviating copy, never changes the value read, and check_integrity holds exactly for three equal copies.", "quantifier": "all stored states", "why_tests_cant": "all values of all types", "anchors": ["python/rad_ml_minimal.cpp:SimpleTMR"]}
{"id": "C198", "title": "Mission names", "statement": "A MissionProfile constructed by a name is the one constructed by the type the name belongs to; every unknown name gives the mission in low Earth orbit; a profile knows its type.", "quantifier": "all strings and mission types", "why_tests_cant": "all strings", "anchors": ["include/rad_ml/mission/mission_profile.hpp:MissionProfile"]}
{"id": "C199", "title": "Mission settings", "statement": "Every mission profile has positive intervals, redundancy 2 or 3 and sane ranges; missions with a higher peak flux are protected at least as strongly; each mission writes its own log and uses its own environment.", "quantifier": "all mission types and pairs of them", "why_tests_cant": "whole domain with all pairs", "anchors": ["include/rad_ml/mission/mission_profile.hpp:MissionProfile"]}
{"id": "C200", "title": "Mission simulation", "statement": "The simulation environment follows the type of the mission, every mission is simulated with a positive event rate, and more exposed missions with higher rates.", "quantifier": "all mission types and pairs of them", "why_tests_cant": "real-number rates of all pairs", "anchors": ["include/rad_ml/mission/mission_profile.hpp:createSimulationEnvironment"]}
{"id": "C201", "title": "Configuring networks for missions", "statement": "After any sequence of configurations a network has the settings of the last mission.", "quantifier": "all networks and sequences of missions", "why_tests_cant": "unbounded sequences", "anchors": ["include/rad_ml/mission/mission_profile.hpp:configureNetwork"]}
{"id": "C202", "title": "Activation functions", "statement": "The activations compute linear, ReLU, leaky ReLU, sigmoid and tanh, are monotone, stay within their ranges for every input, and softmax normalises.", "quantifier": "all inputs including infinities and NaN", "why_tests_cant": "all reals", "anchors": ["include/rad_ml/neural/activation.hpp:ActivationFunction"]}
{"id": "C203", "title": "Criticality scores", "statement": "The criticality score of a component is the weighted mean of its five metrics for every choice of weights: within [0, 1], monotone, independent of the scale of the weights.", "quantifier": "all metrics and weights", "why_tests_cant": "all reals", "anchors": ["include/rad_ml/neural/selective_hardening.hpp:CriticalityMetrics::calculateScore"]}
{"id": "C204", "title": "Ranking of components and layers", "statement": "analyzeAndProtect ranks all components by falling score, losing and duplicating none; a layer's criticality is the average score of its components.", "quantifier": "all networks and weights", "why_tests_cant": "unbounded networks", "anchors": ["include/rad_ml/neural/selective_hardening.hpp:SelectiveHardening::analyzeAndProtect", "include/rad_ml/neural/selective_hardening.hpp:calculateLayerCriticality"]}
{"id": "C205", "title": "Fixed threshold hardening", "statement": "Under the fixed threshold every component gets exactly the level its score falls into, and a higher score never gets less protection.", "quantifier": "all networks, weights and thresholds", "why_tests_cant": "unbounded networks, all reals", "anchors": ["include/rad_ml/neural/selective_hardening.hpp:applyFixedThresholdStrategy"]}
{"id": "C206", "title": "Hardening within a budget", "statement": "The resource constrained strategy never exceeds the budget, assigns a level to every component, gives the most critical component the best affordable level and does not favour less critical components.", "quantifier": "all networks and budgets", "why_tests_cant": "unbounded networks", "anchors": ["include/rad_ml/neural/selective_hardening.hpp:applyResourceConstrainedStrategy"]}
{"id": "C207", "title": "Hardening by layers", "statement": "The layerwise strategy assigns levels by the place of the layer, upgrades components with a score above 0.8, stays within the budget and protects the most critical layers.", "quantifier": "all networks and budgets", "why_tests_cant": "unbounded networks", "anchors": ["include/rad_ml/neural/selective_hardening.hpp:applyLayerwiseImportanceStrategy"]}
{"id": "C208", "title": "Adaptive hardening at run time", "statement": "Each adaptive update moves poorly corrected components one level up and well corrected ones one level down, never touches others, reaches full protection within four updates, keeps the figures current and the budget respected.", "quantifier": "all results, error and correction counts, sequences of updates", "why_tests_cant": "unbounded histories", "anchors": ["include/rad_ml/neural/selective_hardening.hpp:updateAdaptiveProtection"]}
{"id": "C209", "title": "Estimated error rates and usage", "statement": "The expected error rate lies between 1 % of the baseline and the baseline, better protection never raises it nor lowers the usage, and every protection level counts.", "quantifier": "all networks and protection maps", "why_tests_cant": "unbounded networks", "anchors": ["include/rad_ml/neural/selective_hardening.hpp:calculateExpectedErrorRates", "include/rad_ml/neural/selective_hardening.hpp:calculateResourceUsage"]}
{"id": "C210", "title": "Critical paths of a network", "statement": "analyzeNetwork lists exactly the paths from layers without inputs to layers without outputs that visit no layer twice, each once, in every network, with or without cycles.", "quantifier": "all networks with named layers", "why_tests_cant": "unbounded graphs, cycles", "anchors": ["include/rad_ml/neural/sensitivity_analysis.hpp:calculateCriticalPaths", "include/rad_ml/neural/sensitivity_analysis.hpp:findPaths"]}
{"id": "C211", "title": "Connections and propagation factors", "statement": "analyzeNetwork counts the inputs and outputs of every layer, and gives every layer a positive propagation factor that does not fall with more outputs.", "quantifier": "all networks", "why_tests_cant": "unbounded networks, real-number factors", "anchors": ["include/rad_ml/neural/sensitivity_analysis.hpp:calculateConnectivityMetrics", "include/rad_ml/neural/sensitivity_analysis.hpp:calculatePropagationFactor"]}
{"id": "C212", "title": "Topological criticality", "statement": "Every layer of every network has a criticality between 0 and 1; marking it critical never lowers it; each of the four criteria contributes a quarter; renaming a layer has no effect.", "quantifier": "all networks", "why_tests_cant": "unbounded networks, sizes 0", "anchors": ["include/rad_ml/neural/sensitivity_analysis.hpp:calculateTopologicalCriticality", "include/rad_ml/neural/sensitivity_analysis.hpp:calculateInformationBottlenecks"]}
{"id": "C213", "title": "Importance of parameters", "statement": "calculateParameterImportance gives every parameter of every network a number between 0 and 1, its response relative to the largest.", "quantifier": "all networks, parameter values and datasets", "why_tests_cant": "all reals, arbitrary networks", "anchors": ["include/rad_ml/neural/sensitivity_analysis.hpp:calculateParameterImportance", "include/rad_ml/neural/sensitivity_analysis.hpp:normalizeImportanceMap"]}
{"id": "C214", "title": "Importance of activations", "statement": "calculateActivationImportance gives every layer a number between 0 and 1, and sparse activations of high magnitude are the more critical.", "quantifier": "all activations", "why_tests_cant": "all reals", "anchors": ["include/rad_ml/neural/sensitivity_analysis.hpp:calculateActivationImportance"]}
{"id": "C215", "title": "Effects of the space environment", "statement": "Vulnerability, thermal sensitivity, power impact and overall impact of every network lie between 0 and 1 and grow with flux and size.", "quantifier": "all networks and fluxes", "why_tests_cant": "all reals and sizes", "anchors": ["include/rad_ml/neural/sensitivity_analysis.hpp:calculateRadiationVulnerability", "include/rad_ml/neural/sensitivity_analysis.hpp:calculateThermalSensitivity", "include/rad_ml/neural/sensitivity_analysis.hpp:calculatePowerImpact", "include/rad_ml/neural/sensitivity_analysis.hpp:calculateSpaceEnvironmentImpact"]}
{"id": "C216", "title": "Recommended protection levels", "statement": "Recommended levels follow criticality, vulnerability and flux, never fall when these rise, and distinguish layers in the space environments the library defines.", "quantifier": "all analyses and fluxes", "why_tests_cant": "all reals", "anchors": ["include/rad_ml/neural/sensitivity_analysis.hpp:getRecommendedProtectionLevels"]}
{"id": "C217", "title": "Radiation-adjusted criticality", "statement": "Radiation-adjusted criticality is normalised to [0, 1] with maximum exactly 1 and keeps the order of equally vulnerable layers.", "quantifier": "all analyses", "why_tests_cant": "all reals", "anchors": ["include/rad_ml/neural/sensitivity_analysis.hpp:calculateRadiationAdjustedCriticality"]}
{"id": "C218", "title": "Registry of layer policies", "statement": "After every history of additions, removals and changes the policy of a layer is the result of its own operations alone, and the list of layers holds exactly those with a policy, each once.", "quantifier": "all histories of operations", "why_tests_cant": "unbounded histories", "anchors": ["include/rad_ml/neural/layer_protection_policy.hpp:LayerProtectionPolicyManager::addPolicy", "include/rad_ml/neural/layer_protection_policy.hpp:removePolicy", "include/rad_ml/neural/layer_protection_policy.hpp:getPolicyLayers"]}
{"id": "C219", "title": "Policies for missions", "statement": "Setting the mission of a policy never lowers its protection level, keeps the allocation between 0 and 1, and setting it again changes nothing.", "quantifier": "all policies, missions", "why_tests_cant": "all reals, repeated calls", "anchors": ["include/rad_ml/neural/layer_protection_policy.hpp:LayerProtectionPolicy::setMissionProfile"]}
{"id": "C220", "title": "Policies from an analysis", "statement": "Policies made from an analysis share the budget in proportion to criticality, levels never fall when criticality rises, and the strategy that protects all layers protects all.", "quantifier": "all analyses, budgets, strategies", "why_tests_cant": "all reals, unbounded layers", "anchors": ["include/rad_ml/neural/layer_protection_policy.hpp:createPoliciesFromAnalysis", "include/rad_ml/neural/layer_protection_policy.hpp:determineProtectionLevel", "include/rad_ml/neural/layer_protection_policy.hpp:createPolicyVariant"]}
{"id": "C221", "title": "Depth decay of allocations", "statement": "Decay gives deeper layers exponentially less, and keeps the total resource usage; allocations stay between 0 and 1 after every history.", "quantifier": "all managers, depths, histories", "why_tests_cant": "all reals, unbounded histories", "anchors": ["include/rad_ml/neural/layer_protection_policy.hpp:applyExponentialDecay", "include/rad_ml/neural/layer_protection_policy.hpp:calculateDecayFactor"]}
{"id": "C222", "title": "Configuring all layers for a mission", "statement": "configureForMission sets every policy to the mission without lowering its level, keeps the shared budget, and finds the depth of a layer on the critical paths.", "quantifier": "all managers, missions, paths", "why_tests_cant": "unbounded layers, arbitrary names", "anchors": ["include/rad_ml/neural/layer_protection_policy.hpp:configureForMission", "include/rad_ml/neural/layer_protection_policy.hpp:ensureInputLayersProtection", "include/rad_ml/neural/layer_protection_policy.hpp:enableDynamicAdjustment"]}
{"id": "C223", "title": "Weight sensitivities", "statement": "analyzeWeightSensitivity gives every weight its share of gradient magnitude between 0 and 1, with maximum exactly 1, from at least 1000 samples.", "quantifier": "all networks, datasets and gradients", "why_tests_cant": "unbounded datasets and networks", "anchors": ["include/rad_ml/neural/fine_tuning.hpp:EnhancedSensitivityAnalyzer::analyzeWeightSensitivity"]}
{"id": "C224", "title": "Protection profile of weights", "statement": "applyProtectionProfile gives the top fifth of the weights HIGH, the next three tenths MODERATE and the rest MINIMAL protection, never a lower level to a more sensitive weight.", "quantifier": "all sensitivities", "why_tests_cant": "unbounded lists, ties", "anchors": ["include/rad_ml/neural/fine_tuning.hpp:EnhancedSensitivityAnalyzer::applyProtectionProfile"]}
{"id": "C225", "title": "Protection of layers", "statement": "optimizeLayerProtection fully protects first and last layer of every network and the others by error rate and type, never less at a higher rate.", "quantifier": "all networks and error rates", "why_tests_cant": "unbounded networks, all reals", "anchors": ["include/rad_ml/neural/fine_tuning.hpp:LayerProtectionOptimizer"]}
{"id": "C226", "title": "Adaptive Reed-Solomon selection", "statement": "Data encoded with encodeWithAdaptiveRS come back from decodeWithAdaptiveRS; more important data and higher error rates never get a weaker code.", "quantifier": "all data, importances, rates", "why_tests_cant": "all data and reals, rates that change in between", "anchors": ["include/rad_ml/neural/fine_tuning.hpp:AdaptiveReedSolomonSelector"]}
{"id": "C227", "title": "Learning from observed errors", "statement": "After learning, every observed pattern has its relative frequency, susceptibilities lie between 0 and 1, and harsher environments and other patterns change the recommendation accordingly.", "quantifier": "all histories of errors, blocks and rates", "why_tests_cant": "unbounded histories, all reals", "anchors": ["include/rad_ml/neural/fine_tuning.hpp:ErrorPatternLearner"]}
{"id": "C228", "title": "Memory layout of weights", "statement": "optimizeLayout stores every weight exactly once with its value, in interleaved blocks of 64.", "quantifier": "all weights and sensitivities, all results of the sort", "why_tests_cant": "unbounded lists, unspecified order of ties", "anchors": ["include/rad_ml/neural/fine_tuning.hpp:MemoryLayoutOptimizer"]}
{"id": "C229", "title": "Fine-tuning optimizer", "statement": "optimizeNetwork does at each level what the level promises, tells success truly, learns from all errors reported, and its validation measures improvement.", "quantifier": "all networks, levels, histories", "why_tests_cant": "unbounded histories and networks", "anchors": ["include/rad_ml/neural/fine_tuning_integration.hpp:FineTuningOptimizer::optimizeNetwork", "include/rad_ml/neural/fine_tuning_integration.hpp:updateErrorHistory", "include/rad_ml/neural/fine_tuning.hpp:FineTuningValidation"]}
{"id": "C230", "title": "When quantum corrections apply", "statement": "simulateWithQuantumCorrections corrects exactly when the corrections are enabled and forced or a threshold is crossed, and then multiplies all defects of one kind by one factor.", "quantifier": "all defect distributions, crystals, temperatures, sizes, intensities, configurations", "why_tests_cant": "all reals and unbounded defect lists", "anchors": ["src/physics/quantum_integration.cpp:shouldApplyQuantumCorrections", "src/physics/quantum_integration.cpp:applyQuantumCorrectionsToSimulation"]}
{"id": "C231", "title": "Quantum correction terms", "statement": "Tunnelling probability, Klein-Gordon correction and zero-point contribution stay small, depend on the material, and decrease with temperature.", "quantifier": "all parameters", "why_tests_cant": "all reals", "anchors": ["src/physics/quantum_integration.cpp:calculateQuantumTunnelingProbability", "src/physics/quantum_integration.cpp:solveKleinGordonEquation", "src/physics/quantum_integration.cpp:calculateZeroPointEnergyContribution"]}
{"id": "C232", "title": "Quantum enhancement factor", "statement": "calculateQuantumEnhancementFactor is 1 in warm, large devices, grows when temperature or size fall, and is capped at 4 % for temperature and 8 % for size.", "quantifier": "all temperatures and feature sizes", "why_tests_cant": "all reals", "anchors": ["src/physics/quantum_integration.cpp:calculateQuantumEnhancementFactor", "include/rad_ml/physics/quantum_integration.hpp:calculateQuantumEnhancementFactor"]}
{"id": "C233", "title": "Configuration for an environment", "statement": "DefenseConfig::forEnvironment gives stronger protection to harsher environments and leaves the other settings at their defaults.", "quantifier": "all environments", "why_tests_cant": "all enumerators against all radiation tables", "anchors": ["include/rad_ml/api/custom_defense_api.hpp:DefenseConfig::forEnvironment"]}
{"id": "C234", "title": "Registration of custom strategies", "statement": "A strategy is registered once per name; createStrategy uses the registered creator whatever was registered, built or updated since, and gives null for unknown names.", "quantifier": "all histories of registrations, constructions, updates", "why_tests_cant": "unbounded histories of a process-wide factory", "anchors": ["include/rad_ml/api/custom_defense_api.hpp:DefenseFactory::registerStrategy", "include/rad_ml/api/custom_defense_api.hpp:DefenseFactory::createStrategy"]}
{"id": "C235", "title": "Strategy of a defense system", "statement": "UnifiedDefenseSystem runs functions with the configured strategy, falls back to physics-driven protection, and keeps strategy and configuration at the latest environment.", "quantifier": "all configurations, factories, histories", "why_tests_cant": "unbounded histories, all creators", "anchors": ["include/rad_ml/api/custom_defense_api.hpp:UnifiedDefenseSystem::initializeProtectionStrategy", "include/rad_ml/api/custom_defense_api.hpp:UnifiedDefenseSystem::updateEnvironment"]}
{"id": "C236", "title": "Protection of values and networks by a defense system", "statement": "protectValue and protectNeuralNetwork use the configured strategy, level and switches; an accelerator is used if asked for and available.", "quantifier": "all configurations, types, architectures", "why_tests_cant": "all combinations of settings", "anchors": ["include/rad_ml/api/custom_defense_api.hpp:UnifiedDefenseSystem::protectValue", "include/rad_ml/api/custom_defense_api.hpp:UnifiedDefenseSystem::protectNeuralNetwork"]}
{"id": "C237", "title": "Bit interleaving example", "statement": "CustomBitInterleaving protects values, with the configured interleave factor or one adapted to the environment.", "quantifier": "all values, factors, environments", "why_tests_cant": "all values, unbounded histories", "anchors": ["include/rad_ml/api/custom_defense_api.cpp:CustomBitInterleaving"]}
{"id": "C238", "title": "Hardened networks", "statement": "RadiationHardenedNN::forward returns the network's result, also if the network was hit; SimpleNN computes its two layers for every input.", "quantifier": "all networks, sizes, inputs, states of the protection", "why_tests_cant": "unbounded sizes, all reachable states", "anchors": ["include/rad_ml/api/custom_defense_api.hpp:RadiationHardenedNN::forward", "include/rad_ml/api/custom_defense_api.cpp:SimpleNN::forward"]}
{"id": "C239", "title": "Measured cross-sections", "statement": "calculateCrossSection is upsets for each particle and bit, 0 without exposure; a measured value is accepted exactly if within the tolerance of a positive reference.", "quantifier": "all counts, fluxes, times, tolerances", "why_tests_cant": "all reals", "anchors": ["src/validation/cross_section_utils.hpp:calculateCrossSection", "src/validation/cross_section_utils.hpp:validateCrossSection"]}
{"id": "C240", "title": "Weibull curve", "statement": "weibullCrossSection is 0 up to the threshold, rises strictly with the energy and approaches, but never exceeds, the saturation value.", "quantifier": "all parameters and energies", "why_tests_cant": "all reals", "anchors": ["src/validation/cross_section_utils.hpp:weibullCrossSection"]}
{"id": "C241", "title": "Weibull fit", "statement": "fitWeibullParameters recovers threshold, saturation, width and shape from measured points.", "quantifier": "all lists of points", "why_tests_cant": "all lists of reals", "anchors": ["src/validation/cross_section_utils.hpp:fitWeibullParameters"]}
{"id": "C242", "title": "Reference rates", "statement": "The expected upset rate is the reference cross-section of memory and technology times the flux of the environment.", "quantifier": "all memories, technologies, environments", "why_tests_cant": "all combinations", "anchors": ["src/validation/cross_section_utils.hpp:calculateExpectedSEURate"]}
{"id": "C243", "title": "Accuracy validator", "statement": "The validator reports efficiency and accuracy as percentages of upsets and bits, accepts rates within a factor of 2, and keeps the last result for each level.", "quantifier": "all simulators, counts, lists of levels", "why_tests_cant": "all simulators and unbounded lists", "anchors": ["src/validation/radiation_accuracy_validator.hpp:runProtectionTest", "src/validation/radiation_accuracy_validator.hpp:validateEnvironment"]}
{"id": "C244", "title": "Validation reports", "statement": "Reports summarise all results exactly, say 'meets' exactly if 70 % passed, and recommend the environments that did not pass.", "quantifier": "all maps of results", "why_tests_cant": "unbounded results", "anchors": ["src/validation/radiation_validation_report.hpp:generateHTML", "src/validation/radiation_validation_report.hpp:generateMarkdown"]}
{"id": "C245", "title": "Command line of the validation program", "statement": "Options can come in any order, the last one counts, other words are ignored, and the named environment is validated.", "quantifier": "all argument lists", "why_tests_cant": "unbounded argument lists", "anchors": ["src/validation/radiation_validation_test.cpp:main"]}
{"id": "C246", "title": "SEU benchmark", "statement": "The benchmark finds every changed block and measures the cross-section of upsets, to be compared with published ones.", "quantifier": "all memory contents, changes, configurations", "why_tests_cant": "unbounded blocks and changes", "anchors": ["src/validation/seu_benchmark.cpp:runSEUTest"]}
{"id": "C247", "title": "Standard tests", "statement": "The standard tests give a verdict for each of 30 combinations from the average over the trials against the criteria of the mission.", "quantifier": "all metrics, missions, methods, trials, random numbers", "why_tests_cant": "all random sequences, any number of trials", "anchors": ["src/validation/nasa_esa_standard_test.cpp:runSingleEventUpsetTests", "src/validation/nasa_esa_standard_test.cpp:simulateMTBF"]}
{"id": "C248", "title": "Mission assessment", "statement": "A mission is suitable exactly if its health-weighted results all passed; results of a run can be assessed and exported.", "quantifier": "all results, missions, random numbers", "why_tests_cant": "unbounded results", "anchors": ["src/validation/nasa_esa_standard_test_part2.cpp:assessMissionSuitability", "src/validation/nasa_esa_standard_test_part2.cpp:generateComprehensiveReport"]}
{"id": "C249", "title": "Choice of the level", "statement": "A protection level that was set is used for every weight; in adaptive mode weights that matter more get at least as strong a level; harsher environments never weaken the protection.", "quantifier": "all levels, criticalities, environments", "why_tests_cant": "all reals, all histories of settings", "anchors": ["include/rad_ml/neural/adaptive_protection.hpp:set_environment", "include/rad_ml/neural/adaptive_protection.hpp:set_protection_level", "include/rad_ml/neural/adaptive_protection.hpp:get_effective_protection_level"]}
{"id": "C250", "title": "Levels none and moderate", "statement": "Without protection values pass through unchanged; at the moderate level (TMR or Hamming code) every single-bit upset is corrected.", "quantifier": "all values, hits", "why_tests_cant": "all values of all widths", "anchors": ["include/rad_ml/neural/adaptive_protection.hpp:protect_value", "include/rad_ml/neural/adaptive_protection.hpp:recover_value", "include/rad_ml/neural/adaptive_protection.hpp:apply_hamming_protection"]}
{"id": "C251", "title": "Parity level", "statement": "A value protected by parity is read back unchanged, and every single-bit upset is reported.", "quantifier": "all values, all flipped positions", "why_tests_cant": "all values of all widths", "anchors": ["include/rad_ml/neural/adaptive_protection.hpp:compute_parity", "include/rad_ml/neural/adaptive_protection.hpp:add_parity_bit", "include/rad_ml/neural/adaptive_protection.hpp:remove_parity_bit"]}
{"id": "C252", "title": "Reed-Solomon levels", "statement": "At the two highest levels values survive upsets up to the strength of the Reed-Solomon code.", "quantifier": "all values, hits and codecs", "why_tests_cant": "all values of all widths", "anchors": ["include/rad_ml/neural/adaptive_protection.hpp:protect_value", "include/rad_ml/neural/adaptive_protection.hpp:recover_value"]}
{"id": "C253", "title": "Protection statistics", "statement": "Statistics count bits, flips, weights and corrections of the exposure since the last reset, and the memory overhead of the protection.", "quantifier": "all histories of calls, values, probabilities", "why_tests_cant": "unbounded histories", "anchors": ["include/rad_ml/neural/adaptive_protection.hpp:apply_radiation_effects", "include/rad_ml/neural/adaptive_protection.hpp:reset_stats", "include/rad_ml/neural/adaptive_protection.hpp:get_stats", "include/rad_ml/neural/adaptive_protection.hpp:compute_bit_differences"]}
{"id": "C254", "title": "Critical weights", "statement": "The analysis lists every weight of the network with the sensitivity of the output to one flipped bit, most critical first, and leaves the network as it was.", "quantifier": "all networks, samples, random positions", "why_tests_cant": "all networks", "anchors": ["include/rad_ml/neural/adaptive_protection.hpp:identify_critical_weights"]}
{"id": "C255", "title": "Protection within a budget", "statement": "Only the budgeted share of the weights, the most critical ones, is protected, the others are unchanged, and protected weights keep their value.", "quantifier": "all lists of critical weights, budgets, networks", "why_tests_cant": "unbounded lists", "anchors": ["include/rad_ml/neural/adaptive_protection.hpp:optimize_protection"]}
{"id": "C256", "title": "Counters of a benchmark", "statement": "A benchmark counts consistently: corrections never exceed detections, detections never exceed the elements examined, the totals are the sums over the intervals, and the rates and the mean time to failure follow from them.", "quantifier": "all simulators, scenarios, data and element lists", "why_tests_cant": "all iteration counts, all simulator behaviours", "anchors": ["include/rad_ml/testing/benchmark_framework.hpp:runBenchmark"]}
{"id": "C257", "title": "Exposure of the protected elements", "statement": "A benchmark exposes the protected elements to the simulated radiation, so its detection rate tells the techniques apart.", "quantifier": "all simulators, scenarios, data", "why_tests_cant": "all simulator behaviours", "anchors": ["include/rad_ml/testing/benchmark_framework.hpp:runBenchmark", "include/rad_ml/testing/benchmark_framework.hpp:runBenchmarkSuite"]}
{"id": "C258", "title": "Approximate elements and rates", "statement": "Approximate redundancy counts no false detections, and all rates of a benchmark are fractions of one.", "quantifier": "all simulators, scenarios and bytes", "why_tests_cant": "all bytes, all simulator behaviours", "anchors": ["include/rad_ml/testing/benchmark_framework.hpp:runBenchmark"]}
{"id": "C259", "title": "Benchmark suite", "statement": "A suite has one result for each configuration, in the order of the names, from the same data and the same exposure, with the costs of that configuration.", "quantifier": "all environments, scenarios, maps of configurations", "why_tests_cant": "unbounded maps and data", "anchors": ["include/rad_ml/testing/benchmark_framework.hpp:runBenchmarkSuite", "include/rad_ml/testing/benchmark_framework.hpp:generatePatternedTestData"]}
{"id": "C260", "title": "Recommendation", "statement": "The summary names for each metric a configuration no other one beats, and recommends the configuration with the best correction of errors.", "quantifier": "all tables of metrics", "why_tests_cant": "unbounded tables", "anchors": ["include/rad_ml/testing/benchmark_framework.hpp:getSummary"]}
{"id": "C261", "title": "Exported tables", "statement": "The export has one row for each point in time with the values of all components, and one comparative row for each configuration with every metric.", "quantifier": "all results", "why_tests_cant": "unbounded tables", "anchors": ["include/rad_ml/testing/benchmark_framework.hpp:exportToCSV"]}
{"id": "C262", "title": "NASA/ESA runner", "statement": "The program runs the verification with the settings of the environment, writes one row for each item of the report, and its verdicts and exit status reflect the report.", "quantifier": "all settings, trials, reports", "why_tests_cant": "all trial outcomes", "anchors": ["src/nasa_esa_standard_runner.cpp:main", "src/nasa_esa_standard_runner.cpp:exportReportToHTML"]}
{"id": "C263", "title": "LET simulator: flux and distributions", "statement": "The mean particle flux and the mean energy transfer follow the documented laws of altitude, solar activity, anomaly and shielding, and the distributions built from them are defined and have these means.", "quantifier": "all environment parameters", "why_tests_cant": "all real parameters", "anchors": ["src/testing/radiation_simulator.cpp:calculateBaseFlux", "src/testing/radiation_simulator.cpp:calculateMeanLET", "src/testing/radiation_simulator.cpp:initializeDistributions"]}
{"id": "C264", "title": "LET simulator: empirical laws", "statement": "The empirical energy transfer is finite, positive and monotone for every particle, energy and material.", "quantifier": "all particles, energies, materials", "why_tests_cant": "all real energies", "anchors": ["src/testing/radiation_simulator.cpp:calculateEmpiricalLET"]}
{"id": "C265", "title": "LET simulator: Bethe\u2013Bloch", "statement": "The physics-based energy transfer is the Bethe\u2013Bloch formula, a positive number for charged particles and none for photons.", "quantifier": "all particles, energies, materials", "why_tests_cant": "all real energies", "anchors": ["src/testing/radiation_simulator.cpp:calculateBetheBlochLET", "src/testing/radiation_simulator.cpp:calculateLET"]}
{"id": "C266", "title": "LET simulator: error model", "statement": "The probability of an error is a probability, monotone in LET, energy, shielding and temperature; type and magnitude follow the LET.", "quantifier": "all environments, LETs, energies, draws", "why_tests_cant": "all real inputs", "anchors": ["src/testing/radiation_simulator.cpp:calculateErrorProbability", "src/testing/radiation_simulator.cpp:determineErrorType", "src/testing/radiation_simulator.cpp:calculateErrorMagnitude"]}
{"id": "C267", "title": "LET simulator: simulation", "statement": "A simulation reports at most one event for each particle, each with the LET, probability, type, magnitude and a location inside the memory, for every duration.", "quantifier": "all environments, memory sizes, durations, draws", "why_tests_cant": "unbounded numbers of particles and draws", "anchors": ["src/testing/radiation_simulator.cpp:simulateEffects", "src/testing/radiation_simulator.cpp:updateEnvironment"]}
{"id": "C268", "title": "Python redundancy wrapper", "statement": "A value wrapped in Python is read back unchanged after every history of assignments and of single upsets of copies, which are detected and repaired.", "quantifier": "all values, histories of assignments, upsets", "why_tests_cant": "unbounded histories, all values", "anchors": ["rad_ml/tmr.py:StandardTMR", "rad_ml/tmr.py:EnhancedTMR", "python/rad_ml_minimal.cpp:create_standard_tmr_int"]}
{"id": "C269", "title": "Python protected values and arrays", "statement": "A protected value or array survives the loss of one copy at every position, and without a majority the best recovery is returned.", "quantifier": "all strategies, values, arrays, damage patterns", "why_tests_cant": "all values and sizes", "anchors": ["python/rad_ml/unified_defense.py:TMRProtectedValue", "python/rad_ml/unified_defense.py:ProtectedArray"]}
{"id": "C270", "title": "Python hardened modules", "statement": "A hardened module protects the forward pass and the weights: repair restores the weights, and detected and corrected errors are reported.", "quantifier": "all modules, weights, histories, draws", "why_tests_cant": "unbounded histories, all modules", "anchors": ["python/rad_ml/unified_defense.py:RadiationHardenedModule", "python/rad_ml/unified_defense.py:UnifiedDefenseSystem.execute_protected"]}
{"id": "C271", "title": "Python defense configurations", "statement": "Correction probability and effectiveness are fractions of one, best for the multi-layered strategy, and configurations for harsher environments protect more.", "quantifier": "all strategies, levels, environments", "why_tests_cant": "all combinations", "anchors": ["python/rad_ml/unified_defense.py:DefenseConfig.for_environment", "python/rad_ml/unified_defense.py:_get_correction_probability", "python/rad_ml/unified_defense.py:_get_protection_effectiveness"]}
{"id": "C272", "title": "RS(255,223) of the test tools", "statement": "The Reed\u2013Solomon code of the test tools gives every message back from its faultless word and repairs up to sixteen damaged symbols.", "quantifier": "all messages, words, damage", "why_tests_cant": "all words of 255 symbols", "anchors": ["src/testing/protection_techniques.cpp:ReedSolomonCode::encode", "src/testing/protection_techniques.cpp:ReedSolomonCode::decode", "src/testing/protection_techniques.cpp:gf_multiply"]}
{"id": "C273", "title": "Python GF(256)", "statement": "The arithmetic of the Python codec is that of the field GF(2)[x]/(x^8+x^4+x^3+x+1) for all bytes, and the two multiplications agree.", "quantifier": "all bytes and powers", "why_tests_cant": "all operands; unbounded powers", "anchors": ["rs_monte_carlo.py:GF256"]}
{"id": "C274", "title": "Python RS codec", "statement": "A value encoded comes back from the undamaged word; damage is noticed, and up to four damaged bytes are corrected.", "quantifier": "all data of every length, all damage of up to eight bytes", "why_tests_cant": "all data and damage", "anchors": ["rs_monte_carlo.py:RS8Bit8Sym.encode", "rs_monte_carlo.py:RS8Bit8Sym.decode", "rs_monte_carlo.py:RS8Bit8Sym._find_error_locator_polynomial"]}
{"id": "C275", "title": "Python Hamming protection", "statement": "The Hamming code gives the data back, undamaged and after any single bit error, for data of every length; a float protected by it survives any single upset.", "quantifier": "all data, lengths, bit positions", "why_tests_cant": "unbounded lengths, all values and positions", "anchors": ["protection_methods.py:HammingProtection._calculate_parity_bits", "protection_methods.py:HammingProtection._extract_data_bits", "protection_methods.py:HammingProtection.recover"]}
{"id": "C276", "title": "Python SEC-DED protection", "statement": "A float protected by SEC-DED survives any single upset, and every double upset is reported.", "quantifier": "all values, all pairs of positions", "why_tests_cant": "all values and positions", "anchors": ["protection_methods.py:SECDEDProtection.protect", "protection_methods.py:SECDEDProtection.recover"]}
{"id": "C277", "title": "Python TMR and unprotected values", "statement": "A float stored three times survives any damage to one copy.", "quantifier": "all values, all damage to one copy", "why_tests_cant": "all values and damages", "anchors": ["protection_methods.py:TMRProtection.recover", "protection_methods.py:NoProtection.recover"]}
{"id": "C278", "title": "Python Reed\u2013Solomon, hybrids and overheads", "statement": "Reed\u2013Solomon protected floats survive damage; a hybrid succeeds if one of its methods does; the stated overheads are the stored sizes.", "quantifier": "all values, methods, damage", "why_tests_cant": "all lists of methods, all values", "anchors": ["protection_methods.py:ReedSolomonProtection", "protection_methods.py:HybridProtection.recover", "protection_methods.py:create_protection_method"]}
{"id": "C279", "title": "GF(256) of the improved test program", "statement": "The arithmetic of the stand-alone Reed\u2013Solomon program is that of GF(2)[x]/(x^8+x^4+x^3+x^2+1) for all bytes; values and products of polynomials of every length are right, and the generator has the powers of the primitive element as roots.", "quantifier": "all bytes, polynomials of every length", "why_tests_cant": "unbounded lengths", "anchors": ["rs_improved_test.cpp:GF256"]}
{"id": "C280", "title": "Checksum code of the improved test program", "statement": "A value encoded comes back from its word; damage of up to two symbols is corrected.", "quantifier": "all values, words and damage", "why_tests_cant": "all 32-bit values, all words", "anchors": ["rs_improved_test.cpp:ReedSolomon::encode", "rs_improved_test.cpp:ReedSolomon::decode"]}
{"id": "C281", "title": "Minimal test codes", "statement": "The minimal codes give encoded values back and multiply in the field.", "quantifier": "all values, all bytes", "why_tests_cant": "all values", "anchors": ["rs_minimal_test.cpp:SimpleReedSolomon", "gf_minimal_test.cpp:multiply"]}
{"id": "C282", "title": "Material database", "statement": "A material protects by a factor between 1 and 6 that never falls with thickness, density or tolerance; materials are found under their names; an unknown name gives no protection.", "quantifier": "all materials, thicknesses and names", "why_tests_cant": "real parameters, all strings", "anchors": ["rad_ml/core/material_database.hpp:MaterialProperties::getRadiationProtectionFactor", "rad_ml/core/material_database.hpp:MaterialDatabase::getMaterial", "rad_ml/core/material_database.hpp:MaterialDatabase::getAvailableMaterials"]}
{"id": "C283", "title": "Mission environment predicates", "statement": "The total flux is the sum of the fluxes, the mean temperature lies in its range, and more radiation never turns a high-radiation environment into a low one.", "quantifier": "all environments", "why_tests_cant": "real parameters", "anchors": ["rad_ml/sim/mission_environment.hpp:RadiationEnvironment::getTotalFlux", "rad_ml/sim/mission_environment.hpp:RadiationEnvironment::getAverageTemperature", "rad_ml/sim/mission_environment.hpp:RadiationEnvironment::isHighRadiation"]}
{"id": "C284", "title": "High-level memory and error functions", "statement": "Over every history of calls the facade releases each pointer once, counts exactly the pointers outstanding as leaks, gives blocks of the room asked for with the protection configured by initialize, and reports at shutdown what leaked.", "quantifier": "all histories of calls, sizes, counts, levels", "why_tests_cant": "unbounded histories", "anchors": ["include/rad_ml/api/rad_ml.hpp:initialize", "include/rad_ml/api/rad_ml.hpp:shutdown", "include/rad_ml/api/rad_ml.hpp:memory_management::allocate", "include/rad_ml/api/rad_ml.hpp:memory_management::deallocate", "include/rad_ml/api/rad_ml.hpp:memory_management::checkForLeaks"]}
{"id": "C285", "title": "Monte Carlo channel", "statement": "The channel flips exactly the bits drawn and keeps the length; the error counter gives the number of differing bits.", "quantifier": "data of every length, all rates and draws", "why_tests_cant": "unbounded lengths, all draws", "anchors": ["rs_monte_carlo.py:apply_bit_errors", "rs_monte_carlo.py:count_bit_errors"]}
{"id": "C286", "title": "Monte Carlo experiment", "statement": "The success rate is the share of trials recovered, lies in its interval, the interval in [0,1]; corrected bits are reported; the threshold lies between the rates around it.", "quantifier": "all lists of trials, all rates and draws", "why_tests_cant": "unbounded numbers of trials, all draws", "anchors": ["rs_monte_carlo.py:run_monte_carlo_trials", "rs_monte_carlo.py:main"]}
{"id": "C287", "title": "Error rate of the visualizer", "statement": "The error rate used by the protection visualizer lies between 0 and 0.5 for every environment, never falls with proton or electron flux, mean temperature, solar activity or a passage through the anomaly, and is the documented one for each named environment.", "quantifier": "all environments", "why_tests_cant": "real parameters", "anchors": ["tools/protection_visualizer.cpp:calculateErrorRate", "tools/protection_visualizer.cpp:createEnvironment"]}
{"id": "C288", "title": "Report of the visualizer", "statement": "For all draws the visualizer performs 1400 operations, its rows carry the counts up to their time and a success share between 0 and 100; the level chosen follows the environment; corrections count repaired damage; errors count all damage.", "quantifier": "all draws of the run", "why_tests_cant": "all random draws", "anchors": ["tools/protection_visualizer.cpp:main", "tools/protection_visualizer.cpp:createEnvironment"]}
{"id": "C289", "title": "Impact and accuracy of the industry suite", "statement": "The radiation impact is not negative, never falls with upset rate or duration and never rises with shielding; the accuracy of each test lies between 0 and 100 and never falls with a better mechanism, shorter duration or lower upset rate.", "quantifier": "all environments, mechanisms, durations and draws", "why_tests_cant": "all durations, real draws", "anchors": ["src/industry_standard_test.cpp:IndustryStandardEvaluator::calculateRadiationImpact", "src/industry_standard_test.cpp:IndustryStandardEvaluator::simulateTest"]}
{"id": "C290", "title": "Verdict of the industry suite", "statement": "A test passes exactly if the efficiency measured is within a fifth of both reference values; the summary counts the passes of the 30 tests and averages their figures; the rating and suitability follow from them and agree with the exposure simulated.", "quantifier": "all durations and draws", "why_tests_cant": "all durations, real draws", "anchors": ["src/industry_standard_test.cpp:IndustryStandardEvaluator::runProtocolTests", "src/industry_standard_test.cpp:IndustryStandardEvaluator::printSummary", "src/industry_standard_test.cpp:IndustryStandardEvaluator::printMissionSuitability"]}
{"id": "C291", "title": "Analysis of the mission validation", "statement": "For every network and environment the flux factor and the vulnerability of each layer lie between 0 and 1 and never fall with exposure, score or criticality; the level follows the documented thresholds; the predominant type has the most layers; resource usage lies between a third and one.", "quantifier": "all networks, environments and scores", "why_tests_cant": "real parameters, layers of any number", "anchors": ["src/space_mission_validation_test.cpp:MockSpaceAnalyzer::analyzeVulnerability", "src/space_mission_validation_test.cpp:MockSpaceAnalyzer::getRecommendedProtectionLevels", "src/space_mission_validation_test.cpp:SpaceMissionValidator::testMissionPhase"]}
{"id": "C292", "title": "Verdict of the mission validation", "statement": "For all draws the error rate is the share of damaged samples, a phase passes exactly if its rate is below 5 % and the efficiency near the reference, the phases tested include the most exposed one, and a phase without errors passes.", "quantifier": "all networks, missions, sample counts and draws", "why_tests_cant": "unbounded numbers of samples, all draws", "anchors": ["src/space_mission_validation_test.cpp:SpaceMissionValidator::simulateErrorRate", "src/space_mission_validation_test.cpp:SpaceMissionValidator::testMissionPhase", "src/space_mission_validation_test.cpp:SpaceMissionValidator::runAllMissionTests"]}
{"id": "C293", "title": "Result of the enhancement comparison for one environment", "statement": "For every environment with radiation not below zero and every configuration the figures stay within their limits, are the documented sum of the switched-on gains, never get worse when features are switched on, have no effect without the master switch, and the enhanced configuration is strictly better in all five figures.", "quantifier": "all environments and configurations", "why_tests_cant": "real settings, all combinations of switches", "anchors": ["src/enhancement_comparison.cpp:EnhancementComparison::testFramework", "src/enhancement_comparison.cpp:FrameworkConfig"]}
{"id": "C294", "title": "Summary of the enhancement comparison", "statement": "For every list of environments each average is the arithmetic mean of the figures, the average improvement is the difference of the averages, the counters are the numbers of passed tests, suitability follows the documented requirements, and the two comparison programs agree.", "quantifier": "all lists of environments, all averages", "why_tests_cant": "unbounded lists of environments", "anchors": ["src/enhancement_comparison.cpp:EnhancementComparison::runComparison", "src/enhancement_comparison.cpp:EnhancementComparison::printMissionSuitability", "src/enhanced_vs_baseline_test.cpp:EnhancementComparison::testFramework", "src/enhanced_vs_baseline_test.cpp:EnhancementComparison::runComparisonTests"]}
{"id": "C295", "title": "Loop and counters of the stress test", "statement": "For every sequence of clock readings, scrub results, memory contents and events the totals add up, each report records the totals before its own scrub and comes at least one interval after the last, the loop ends, and the uncorrectable count is the number of errors not corrected.", "quantifier": "all runs", "why_tests_cant": "any number of turns, any clock, any events and memory contents", "anchors": ["stress_test.cpp:runStressTest", "stress_test.cpp:StressTestRecord"]}
{"id": "C296", "title": "Results of the stress test", "statement": "For every run the recovery rate is the share of detected errors that left no wrong value, the verdict follows the documented limits, the shares add up to 100, and the file has one row per report.", "quantifier": "all counts of errors and wrong values, all record lists", "why_tests_cant": "all 64-bit counts, any run", "anchors": ["stress_test.cpp:runStressTest", "stress_test.cpp:main"]}
{"id": "C297", "title": "Checks of the verification program", "statement": "For every timing and every memory content the checks printed by the verification program tell whether the adaptive protection adapts, the environment update takes effect and the damaged values are recovered.", "quantifier": "all clock readings, rates and memory contents", "why_tests_cant": "any clock, any memory contents", "anchors": ["verify_framework.cpp:verifyAdaptiveProtection", "verify_framework.cpp:verifyRadiationSimulator", "verify_framework.cpp:runIntegratedTest"]}
{"id": "C298", "title": "Vote of the radiation stress test", "statement": "For every network, value, input and strike pattern the vote returns the value two copies hold (or the value if no bit is damaged twice), a protected pass computes what the undamaged network computes if at most one copy of each parameter is struck, and damage does not accumulate over passes.", "quantifier": "all patterns, sizes, inputs, arithmetic and draws", "why_tests_cant": "all 2^96 triples of values, any network size, any sequence of passes", "anchors": ["test/verification/radiation_stress_test.cpp:RadiationTestNetwork::voteMajority", "test/verification/radiation_stress_test.cpp:RadiationTestNetwork::forward", "test/verification/radiation_stress_test.cpp:simulateBitFlip"]}
{"id": "C299", "title": "Counters of the radiation stress test", "statement": "For every pass the error counter grows by the number of copies damaged and the corrected counter by the number of errors the vote corrected.", "quantifier": "all networks, draws and inputs", "why_tests_cant": "any size, any damage", "anchors": ["test/verification/radiation_stress_test.cpp:RadiationTestNetwork::applyRadiationEffects", "test/verification/radiation_stress_test.cpp:RadiationTestNetwork::voteMajority", "test/verification/radiation_stress_test.cpp:RadiationTestNetwork::getErrorStats"]}
{"id": "C300", "title": "Tests of the radiation stress test", "statement": "For every intensity, switch, network and list of inputs a test ends with one row per sample, compares with the outputs of the undamaged network, and without radiation finds no difference.", "quantifier": "all intensities, networks, inputs and draws, any sequence of tests", "why_tests_cant": "any number of samples and of earlier tests", "anchors": ["test/verification/radiation_stress_test.cpp:runRadiationTest", "test/verification/radiation_stress_test.cpp:main"]}
{"id": "C301", "title": "Trials of the method comparison", "statement": "For every method, error rate and list of trials the success rate is the share of trials that recover the weight, between 0 and 1 and inside its interval, is 1 without errors, and the listed Reed-Solomon variants differ and correct damage within their capability.", "quantifier": "all methods, rates, weights and draws, any number of trials", "why_tests_cant": "any number of trials, any draws, all weights", "anchors": ["enhanced_monte_carlo.py:run_monte_carlo_trials_for_method"]}
{"id": "C302", "title": "Table of the method comparison", "statement": "For every list of results the table lists each method once, best performance first, with its success rates at 0.1 %, 1 % and 5 %.", "quantifier": "all lists of results and rates", "why_tests_cant": "any number of methods, any rates", "anchors": ["enhanced_monte_carlo.py:print_comparative_table", "enhanced_monte_carlo.py:main"]}
{"id": "C303", "title": "Recommendations of the method comparison", "statement": "For every environment and list of results the recommended method is in the list and no other has a success rate better by more than the stated tolerance, independently of the order of the methods.", "quantifier": "all environments, all lists of results in any order", "why_tests_cant": "any number of methods, all orders", "anchors": ["enhanced_monte_carlo.py:write_recommendations"]}
{"id": "C304", "title": "Vote of the mission simulation network", "statement": "For every level, checkpoint and reliabilities the vote on an output gives the value two of the three networks give, and never a value outside the range of the outputs and the checkpoint.", "quantifier": "all outputs, levels, checkpoints and reliabilities", "why_tests_cant": "all triples of outputs and all levels", "anchors": ["src/test/mission_simulation_test.cpp:TMRProtectedNeuralNetwork::standardTMRInference", "src/test/mission_simulation_test.cpp:TMRProtectedNeuralNetwork::selectiveVotingInference", "src/test/mission_simulation_test.cpp:TMRProtectedNeuralNetwork::weightedAverageInference"]}
{"id": "C305", "title": "Reliabilities of the mission simulation network", "statement": "For every history of damage and calls the reliabilities stay positive and at most 1, above their floor, and fall when a network is outvoted.", "quantifier": "all histories of damage and calls, any number of outputs", "why_tests_cant": "unbounded histories", "anchors": ["src/test/mission_simulation_test.cpp:TMRProtectedNeuralNetwork::forward", "src/test/mission_simulation_test.cpp:TMRProtectedNeuralNetwork::corruptModel"]}
{"id": "C306", "title": "Answers of the mission simulation network", "statement": "After every history a call answers with the vote prescribed for the level, within the range of all outputs so far, and is a probability distribution if the outputs are.", "quantifier": "all histories, inputs and times", "why_tests_cant": "unbounded histories with checkpoints", "anchors": ["src/test/mission_simulation_test.cpp:TMRProtectedNeuralNetwork::forward"]}
{"id": "C307", "title": "Mission data of the mission simulation", "statement": "Every mission has complete data for each of its days, days outside are refused, environments follow the phases, and the flip probability is a probability.", "quantifier": "all missions, all days, all protection levels", "why_tests_cant": "all integers as day, all protection levels", "anchors": ["src/test/mission_simulation_test.cpp:RealMissionDataSimulator::loadMissionData", "src/test/mission_simulation_test.cpp:RealMissionDataSimulator::configureMissionSimulation", "src/test/mission_simulation_test.cpp:run_mission_test"]}
{"id": "C308", "title": "Summary of the mission simulation", "statement": "For every list of days the summary reports the worst day and the average, keeps estimates in their ranges and rates the mission by its accuracy.", "quantifier": "all lists of days, all estimates and draws", "why_tests_cant": "any number of days, all real parameters", "anchors": ["src/test/mission_simulation_test.cpp:run_mission_test", "src/test/mission_simulation_test.cpp:computeAccuracy", "src/test/mission_simulation_test.cpp:calculateBaselineAccuracy"]}
{"id": "C309", "title": "Protected values of the simplified Monte Carlo test", "statement": "Whenever two of the three copies of a protected value are the same number, correction restores all copies and the value to it; it fails only if no two copies agree, and damage to one copy is detected by the integrity check.", "quantifier": "all values and all damage, including infinities and NaN", "why_tests_cant": "all numbers, infinities and NaN as damage", "anchors": ["simplified_monte_carlo_test.py:StandardTMR", "simplified_monte_carlo_test.py:EnhancedTMR"]}
{"id": "C310", "title": "Radiation on a network of the simplified Monte Carlo test", "statement": "However often and at whatever rates a protected network is exposed, the values its forward pass reads stay those it was made with; every draw below the rate is counted as a flip, every detected error is corrected, and on unprotected networks only struck parameters change.", "quantifier": "all networks of any size, all rates, draws and flips, any number of exposures", "why_tests_cant": "unbounded networks and exposures", "anchors": ["simplified_monte_carlo_test.py:SimpleNeuralNetwork.simulate_radiation_effects"]}
{"id": "C311", "title": "Results of the simplified Monte Carlo test", "statement": "For every list of error rates the row of a rate states how the network's accuracy at that rate compares with its accuracy without radiation, the correction rate is the share of detected errors that were corrected, and the sustainable rate is the largest at which 90 % of the accuracy is kept.", "quantifier": "all setups, baselines, lists of rates and rows", "why_tests_cant": "all random streams, all rates, any number of rows", "anchors": ["simplified_monte_carlo_test.py:run_monte_carlo_test", "simplified_monte_carlo_test.py:max_sustainable_error_rate", "simplified_monte_carlo_test.py:generate_test_data"]}
{"id": "C312", "title": "Protected value of the voting demonstrations", "statement": "Whenever two copies hold the same value, whatever the third holds, the value read equals it, a single differing copy fails the integrity check and correction restores it; correction refuses exactly if all copies agree or no two do.", "quantifier": "all values (integers, floats, NaN) and all damage to one copy", "why_tests_cant": "all integers and all binary32 patterns as damage", "anchors": ["advanced_tmr_demo.py:EnhancedTMRDemo", "validate_tmr.py:test_tmr_protection"]}
{"id": "C313", "title": "Bit flip of the voting demonstrations", "statement": "Flipping a position changes exactly one bit of the value, at the place the position names, is undone by flipping again, and always gives a different value.", "quantifier": "all integers, all floats, all positions", "why_tests_cant": "unbounded integers, all patterns, all roundings", "anchors": ["advanced_tmr_demo.py:simulate_bit_flip", "validate_tmr.py:simulate_bit_flip"]}
{"id": "C314", "title": "Runs of the voting demonstrations", "statement": "For every list of tests the counters count the tests by verdict and add up to their number, and no fair test is ever counted as failed.", "quantifier": "all lists of drawn tests, any length", "why_tests_cant": "unbounded runs, all draws", "anchors": ["advanced_tmr_demo.py:run_tmr_demonstration", "validate_tmr.py:test_tmr_protection"]}
{"id": "C315", "title": "Phases sampled by the space mission test", "statement": "For every mission the test simulates phases spread over it, in order and none twice, including the first, as many as it announces and the critical ones among them.", "quantifier": "all numbers of phases", "why_tests_cant": "any number of phases", "anchors": ["src/test/space_mission_neural_test.cpp:runMissionSimulation"]}
{"id": "C316", "title": "Error detection of the space mission test", "statement": "For every input, probability and draws the network's outputs are flipped exactly where a draw is below the probability, and an inference is counted as faulty exactly if an output was flipped.", "quantifier": "all inputs, probabilities and draws", "why_tests_cant": "all real inputs and draws", "anchors": ["src/test/space_mission_neural_test.cpp:SpaceMissionNN::forward", "src/test/space_mission_neural_test.cpp:runMissionSimulation"]}
{"id": "C317", "title": "Counts and summary of the space mission test", "statement": "For every list of inferences the error counts are those of the faulty inferences, the layers' rates add up to the phase's, the summary names the phase and layer with the highest rate, and every target has a protection profile.", "quantifier": "all lists of inferences, all phases and targets", "why_tests_cant": "unbounded inferences and phases, all targets", "anchors": ["src/test/space_mission_neural_test.cpp:runMissionSimulation"]}
{"id": "C318", "title": "Faults injected by the validation of the space TMR", "statement": "For every value, environment and sequence number an injected fault flips exactly the bits of the environment's pattern at its position; single, double and triple trials corrupt one, two (differently) and three copies.", "quantifier": "all values, patterns, positions, environments and sequence numbers", "why_tests_cant": "all 32- and 64-bit values, unbounded sequence numbers", "anchors": ["test/verification/space_monte_carlo_validation.cpp:applyBitPattern", "test/verification/space_monte_carlo_validation.cpp:applyRadiationEffects", "test/verification/space_monte_carlo_validation.cpp:runComparisonTest"]}
{"id": "C319", "title": "One trial of the validation of the space TMR", "statement": "For every stored value and copies the checksum tells apart, corruption is detected exactly if a copy differs, an intact copy suffices for the stored value to be returned with success, and a failed read can be repaired.", "quantifier": "all values, copies, equality and checksum functions", "why_tests_cant": "all value types and copies", "anchors": ["test/verification/space_monte_carlo_validation.cpp:runComparisonTest", "include/rad_ml/core/redundancy/space_enhanced_tmr.hpp:SpaceEnhancedTMR"]}
{"id": "C320", "title": "Counters and report of the validation of the space TMR", "statement": "For every data and number of trials the counters balance, detection is exact, the uncorrectable trials are those with three corrupted copies, and the printed percentages are the share of successes.", "quantifier": "all data, environments and numbers of trials", "why_tests_cant": "unbounded trials, all environments", "anchors": ["test/verification/space_monte_carlo_validation.cpp:runComparisonTest", "test/verification/space_monte_carlo_validation.cpp:generateSpaceVerificationReport"]}
{"id": "C321", "title": "Parameters affected by the systematic fault test", "statement": "For every network, coverage and draws the indices address every parameter exactly once, and an injection corrupts the announced number of different parameters, one copy of each, and nothing else; it returns.", "quantifier": "all networks, coverages, draws and faults", "why_tests_cant": "unbounded sizes and draws, any fault function", "anchors": ["test/verification/systematic_fault_test.cpp:applyFaultInjection"]}
{"id": "C322", "title": "Protection in the systematic fault test", "statement": "For every network, coverage, faults and inputs the protected outputs after an injection are those of the network before it.", "quantifier": "all networks, arithmetic, coverages, faults and inputs", "why_tests_cant": "unbounded sizes and inputs, any arithmetic", "anchors": ["test/verification/systematic_fault_test.cpp:forward", "test/verification/systematic_fault_test.cpp:voteMajority", "test/verification/systematic_fault_test.cpp:runSystematicFaultTest"]}
{"id": "C323", "title": "Counters of the systematic fault test", "statement": "For every test the faults injected, detected and corrected are counted as such, at most as many parameters differ as faults were injected, and the correction rate is a percentage of the faults.", "quantifier": "all networks, coverages, draws, faults and inputs", "why_tests_cant": "unbounded sizes and inputs", "anchors": ["test/verification/systematic_fault_test.cpp:runSystematicFaultTest", "test/verification/systematic_fault_test.cpp:getAffectedCounts"]}
{"id": "C324", "title": "Dose table of the realistic space validation", "statement": "For every table the dose rate at a tabulated thickness is the tabulated one, linear between two entries, constant outside, always between the smallest and largest entry, and never rises with the thickness if the table does not.", "quantifier": "all tables of points and thicknesses", "why_tests_cant": "unbounded tables, real arguments", "anchors": ["test/verification/realistic_space_validation.cpp:getDoseRate", "test/verification/realistic_space_validation.cpp:initializeDoseRateMaps", "test/verification/realistic_space_validation.cpp:loadDoseRates"]}
{"id": "C325", "title": "Upset probability of the realistic space validation", "statement": "For every position the probability is the base rate times the relative dose times the documented position factor, never negative, never raised by thicker shielding or larger distance; the validation compares it with a known flux.", "quantifier": "all positions, distances, shields and tables", "why_tests_cant": "real arguments", "anchors": ["test/verification/realistic_space_validation.cpp:calculateSEUProbability", "test/verification/realistic_space_validation.cpp:calculatePositionFactor", "test/verification/realistic_space_validation.cpp:validateTestPoint", "test/verification/realistic_space_validation.cpp:calculateElectronFlux"]}
{"id": "C326", "title": "Bit errors of the realistic space validation", "statement": "For every value, seed and probability each bit flips exactly if its draw is below the probability; the pattern does not depend on the value and grows with the probability.", "quantifier": "all values of any width, seeds and probabilities", "why_tests_cant": "64-bit seeds, real probabilities, any width", "anchors": ["test/verification/realistic_space_validation.cpp:applyBitErrors"]}
{"id": "C327", "title": "Voting in the realistic space validation", "statement": "For every value of up to four bytes and every three damages, a read returns the stored value if any copy is intact; a trial succeeds exactly then, and better shielding never lowers the success rate.", "quantifier": "all values, damages, probabilities and positions", "why_tests_cant": "2^128 states, real probabilities", "anchors": ["test/verification/realistic_space_validation.cpp:SpaceTMR", "test/verification/realistic_space_validation.cpp:testAtPosition"]}
{"id": "C328", "title": "Orbit of the realistic space validation", "statement": "At every time the reported radius is that of the orbit equation, Kepler's equation is solved to the stated accuracy, and latitude and radius stay in the ranges of the orbit; the latitude is that of the orbital elements.", "quantifier": "all orbital elements and times", "why_tests_cant": "real arguments", "anchors": ["test/verification/realistic_space_validation.cpp:loadOrbitalData"]}
{"id": "C329", "title": "Conclusion of the realistic space validation", "statement": "The test distinguishes the space-optimized from the standard variant at some position it tests.", "quantifier": "all positions outside the Earth, and all times of the orbit", "why_tests_cant": "all positions, a whole program run each", "anchors": ["test/verification/realistic_space_validation.cpp:testAtPosition", "test/verification/realistic_space_validation.cpp:main"]}
{"id": "C330", "title": "Map and table of the realistic space validation", "statement": "Every position is drawn in the cell that contains it with the symbol of its rate, only the outline of the anomaly is marked, every position is counted in exactly one region, and the table shows the averages of the region.", "quantifier": "all positions, rates and lists of results", "why_tests_cant": "unbounded lists, real positions", "anchors": ["test/verification/realistic_space_validation.cpp:generateOrbitMap"]}
{"id": "C331", "title": "Fluxes of the LEO mission test", "statement": "For every amount of shielding the effective flux of each particle type is the open flux attenuated exponentially, 1.9 times that for protons and electrons because of the South Atlantic anomaly; more shielding never lets more through.", "quantifier": "all shielding values and particle types", "why_tests_cant": "real arguments", "anchors": ["test/verification/realistic_leo_mission_test.cpp:getShieldedProtonFlux", "test/verification/realistic_leo_mission_test.cpp:getEffectiveProtonFlux", "test/verification/realistic_leo_mission_test.cpp:getEffectiveElectronFlux"]}
{"id": "C332", "title": "Fluence of the LEO mission test", "statement": "For every mission and all random numbers the run completes; the fluence of each type is that of its average flux over the year, the peak flux that inside the anomaly.", "quantifier": "all parameters and energies sampled in all 36 steps", "why_tests_cant": "real parameters, every sequence of random numbers", "anchors": ["test/verification/realistic_leo_mission_test.cpp:simulateLEOMission"]}
{"id": "C333", "title": "Energy loss factor of the LEO mission test", "statement": "For every energy the physics-based factor is positive and bounded for protons and heavy ions, and the literature values serve as the fallback.", "quantifier": "all energies and particle types", "why_tests_cant": "real energies", "anchors": ["test/verification/realistic_leo_mission_test.cpp:calculateLindhardNIEL", "test/verification/realistic_leo_mission_test.cpp:calculateDPA"]}
{"id": "C334", "title": "Displacements per atom of the LEO mission test", "statement": "For every flux, energy, duration and temperature the displacements per atom follow the documented formula, are proportional to flux and duration, and positive.", "quantifier": "all fluxes, energies, durations, temperatures", "why_tests_cant": "real arguments", "anchors": ["test/verification/realistic_leo_mission_test.cpp:calculateDPA"]}
{"id": "C335", "title": "Damage check of the LEO mission test", "statement": "Some run of the mission passes the validation of the total damage against the expected range.", "quantifier": "all missions with at least the default shielding and all sequences of random numbers", "why_tests_cant": "every sequence of 108 random numbers", "anchors": ["test/verification/realistic_leo_mission_test.cpp:simulateLEOMission", "test/verification/realistic_leo_mission_test.cpp:printResults"]}
{"id": "C336", "title": "Defects of the LEO mission test", "statement": "For every energy and number of particles a particle below the displacement threshold makes no defects, one above it the number of the cascade model, and the count of a step is proportional to the number of particles.", "quantifier": "all energies, particle numbers, temperatures and types", "why_tests_cant": "real arguments", "anchors": ["test/verification/realistic_leo_mission_test.cpp:simulateLEOMission"]}
{"id": "C337", "title": "Totals of the LEO mission test", "statement": "For every mission the totals are the sums over steps and types, and the quantum enhancement is that of the whole mission, never negative and limited by the thermal energy.", "quantifier": "all parameters and energies sampled in all steps", "why_tests_cant": "every sequence of random numbers", "anchors": ["test/verification/realistic_leo_mission_test.cpp:simulateLEOMission", "test/verification/realistic_leo_mission_test.cpp:printResults"]}
{"id": "C338", "title": "Votes of the extreme stress test", "statement": "Each of the three voters reads the value two of its copies agree on, whatever the health scores or kinds of approximation; without majority the first, the healthiest or the exact copy.", "quantifier": "all copies, health scores, kinds of approximation", "why_tests_cant": "three arbitrary 32-bit copies and arbitrary scores", "anchors": ["examples/enhanced_features_test/extreme_stress_test.cpp:BasicTMR::get", "examples/enhanced_features_test/extreme_stress_test.cpp:HealthWeightedTMR::get", "examples/enhanced_features_test/extreme_stress_test.cpp:ApproximateTMR::get"]}
{"id": "C339", "title": "Health scores of the extreme stress test", "statement": "Every read with a majority rewards the agreeing copies by 0.05 and punishes the others by 0.2, and after every history the scores lie between 0.1 and 1.", "quantifier": "all histories of reads, writes, repairs and faults", "why_tests_cant": "every history of operations", "anchors": ["examples/enhanced_features_test/extreme_stress_test.cpp:HealthWeightedTMR::updateHealthScores"]}
{"id": "C340", "title": "Approximate copies of the extreme stress test", "statement": "Storing any value and reading it gives the value back, and a fault in one copy is outvoted.", "quantifier": "all values and all faults in one copy", "why_tests_cant": "every 32-bit value and every fault", "anchors": ["examples/enhanced_features_test/extreme_stress_test.cpp:ApproximateTMR::set", "examples/enhanced_features_test/extreme_stress_test.cpp:ApproximateTMR::reducePrecision", "examples/enhanced_features_test/extreme_stress_test.cpp:ApproximateTMR::limitRange"]}
{"id": "C341", "title": "Radiation events of the extreme stress test", "statement": "Each kind of event changes exactly the bits its description announces.", "quantifier": "all values, positions, numbers of bits and random draws", "why_tests_cant": "every 32-bit value, every position and draw", "anchors": ["examples/enhanced_features_test/extreme_stress_test.cpp:SpaceEnvironmentSimulator::applyRadiationEvent"]}
{"id": "C342", "title": "Environments of the extreme stress test", "statement": "At each location the probabilities are positive and add up to 1; for every roll the type drawn is the one whose share of the unit interval contains it; rates grow along the list.", "quantifier": "all locations and rolls", "why_tests_cant": "a real roll", "anchors": ["examples/enhanced_features_test/extreme_stress_test.cpp:SpaceEnvironmentSimulator::configureEnvironment", "examples/enhanced_features_test/extreme_stress_test.cpp:SpaceEnvironmentSimulator::generateErrorType"]}
{"id": "C343", "title": "Accounting of the extreme stress test", "statement": "For every voter and sequence of events each type is counted as often as it occurs, corrections by type add up, all rates lie between 0 and 1, and only lost values lower the correction rate.", "quantifier": "all voters, values, lists of events and random draws", "why_tests_cant": "every list of events", "anchors": ["examples/enhanced_features_test/extreme_stress_test.cpp:runStressTest", "examples/enhanced_features_test/extreme_stress_test.cpp:TestResults"]}
{"id": "C344", "title": "Repair in the extreme stress test", "statement": "After every detected error the repair restores the stored value, and the test compares with the value stored at the start.", "quantifier": "all voters, values and lists of events", "why_tests_cant": "every list of events", "anchors": ["examples/enhanced_features_test/extreme_stress_test.cpp:runStressTest", "examples/enhanced_features_test/extreme_stress_test.cpp:BasicTMR::repair", "examples/enhanced_features_test/extreme_stress_test.cpp:HealthWeightedTMR::repair", "examples/enhanced_features_test/extreme_stress_test.cpp:ApproximateTMR::repair"]}
{"id": "C345", "title": "Survival in the extreme stress test", "statement": "As long as every element is hit in one copy only, by any number of events, no value is lost; single flips in different copies at different times do no harm.", "quantifier": "all values and lists of events", "why_tests_cant": "every list of events", "anchors": ["examples/enhanced_features_test/extreme_stress_test.cpp:runStressTest"]}
{"id": "C346", "title": "Conclusion of the extreme stress test", "statement": "For all rates the voter named as best has the highest rate.", "quantifier": "all three rates", "why_tests_cant": "real rates", "anchors": ["examples/enhanced_features_test/extreme_stress_test.cpp:main"]}
{"id": "C347", "title": "Voter checks of the framework validation", "statement": "For every stored value and every different corrupting value the value survives a repair and the corruption of one copy, is lost with the second, and the program's verdict about the voter is favourable.", "quantifier": "all pairs of different values", "why_tests_cant": "arbitrary values of any type", "anchors": ["test/framework_validation_test.cpp:testBasicTMR", "test/framework_validation_test.cpp:main"]}
{"id": "C348", "title": "Levels in the framework validation", "statement": "For each of the six environments the level chosen is one the test accepts.", "quantifier": "all six environments, in order", "why_tests_cant": "the state carried from one environment to the next", "anchors": ["test/framework_validation_test.cpp:testPhysicsDrivenProtection"]}
{"id": "C349", "title": "Error injection in the framework validation", "statement": "For all draws the operation returns the right value exactly when at most one of its executions is hit, the counts are those of such operations and the verdict follows from them; every error is reported.", "quantifier": "all sequences of random draws", "why_tests_cant": "every sequence of real draws", "anchors": ["test/framework_validation_test.cpp:testErrorInjectionAndRecovery"]}
{"id": "C350", "title": "Protected execution in the mission-critical test", "statement": "For all functions, states and draws: the value returned is the function's, an error is counted exactly when the draw is below the environment's probability and corrected exactly when a second draw is below the level's effectiveness.", "quantifier": "all functions, protection states and draws", "why_tests_cant": "every function and real draw", "anchors": ["test/mission_critical_validation.cpp:AdaptiveProtection::executeProtected", "test/mission_critical_validation.cpp:getProtectionEffectiveness", "test/mission_critical_validation.cpp:getProtectionOverhead"]}
{"id": "C351", "title": "Training in the mission-critical test", "statement": "For networks of all sizes the gradients have one entry per parameter, corrupted ones are rejected without effect, others move every parameter against its gradient; inference refuses wrong sizes; the accuracy is the share of data classified right.", "quantifier": "all networks, inputs, targets and data sets", "why_tests_cant": "all sizes and real weights", "anchors": ["test/mission_critical_validation.cpp:MissionCriticalNetwork::computeGradients", "test/mission_critical_validation.cpp:MissionCriticalNetwork::updateWeights", "test/mission_critical_validation.cpp:MissionCriticalNetwork::forward", "test/mission_critical_validation.cpp:MissionCriticalNetwork::calculateAccuracy"]}
{"id": "C352", "title": "Samples of the mission-critical test", "statement": "After every minute the samples taken and skipped are exactly counted, and the file reports the samples processed.", "quantifier": "all networks, data, spikes, corruptions, draws and minutes", "why_tests_cant": "every history of the mission", "anchors": ["test/mission_critical_validation.cpp:simulateMission", "test/mission_critical_validation.cpp:TestResults::writeToFile"]}
{"id": "C353", "title": "Environments of the mission-critical test", "statement": "After every minute the protection works with the environment scheduled for it, or with the probe's during a spike, and the log tells which.", "quantifier": "all networks, data, spikes, draws and minutes", "why_tests_cant": "every history of the mission", "anchors": ["test/mission_critical_validation.cpp:simulateMission"]}
{"id": "C354", "title": "Logs of the mission-critical test", "statement": "Each spike is announced once, and the overhead reported is that of the protection.", "quantifier": "all spikes and minutes", "why_tests_cant": "every history of the mission", "anchors": ["test/mission_critical_validation.cpp:simulateMission"]}
{"id": "C355", "title": "Measurements of the mission-critical test", "statement": "The accuracies reported show the effect of radiation on the protected network, and the error rate is a rate of errors per sample.", "quantifier": "all networks, data, spikes, draws and minutes", "why_tests_cant": "every pair of histories with different radiation", "anchors": ["test/mission_critical_validation.cpp:simulateMission"]}
{"id": "C356", "title": "Unit tests of voter and scrubber", "statement": "For every stored and corrupting value the assertions of the voter's unit test hold; the scrubber's callback restores each object with one corrupted copy in a region of any size and touches nothing else.", "quantifier": "all values, region sizes, contents and corrupted copies", "why_tests_cant": "arbitrary types and sizes", "anchors": ["test/unit/core/redundancy/tmr_test.cpp:test_majority_voting", "test/unit/core/memory/memory_scrubber_test.cpp:test_memory_scrubbing"]}
{"id": "C357", "title": "Unit test of the bit flip", "statement": "For every buffer, byte and bit a single bit flip changes exactly one bit, and the test's loop counts exactly the differing bits.", "quantifier": "all buffers and all draws", "why_tests_cant": "buffers of any length", "anchors": ["test/unit/testing/fault_injector_test.cpp:test_single_bit_flip"]}
{"id": "C358", "title": "Unit test of resilience", "statement": "For every value, sequence of flips and number of trials the test tells whether faults are detected and corrected: faults are corrected, and the last assertion fails if the value was lost.", "quantifier": "all values, flips and numbers of trials", "why_tests_cant": "every sequence of random flips", "anchors": ["test/unit/testing/fault_injector_test.cpp:test_tmr_resilience"]}
{"id": "C359", "title": "Unit tests of the convolution", "statement": "For every image the layers of the unit tests compute the centre pixel and the differences of rows and columns, in output arrays of the sizes stated.", "quantifier": "all images and prior memory contents", "why_tests_cant": "all pixel values", "anchors": ["test/unit/inference/layers/conv_layer_test.cpp:test_identity_convolution", "test/unit/inference/layers/conv_layer_test.cpp:test_edge_detection"]}
{"id": "C360", "title": "Unit test of the convolution's resilience", "statement": "For every filter, bias, image and single fault in a parameter copy the output is that of the undamaged layer, with and without repair.", "quantifier": "all filters, images, parameters, copies and corrupting values", "why_tests_cant": "every fault location and value", "anchors": ["test/unit/inference/layers/conv_layer_test.cpp:test_convolution_resilience"]}
{"id": "C361", "title": "Temperature factor of materials", "statement": "For all bases and temperatures the corrected threshold is proportional to the base, monotone and without jumps, with the stated values.", "quantifier": "all real temperatures", "why_tests_cant": "a continuum of temperatures", "anchors": ["tests/material_physics_integration_test.cpp:calculateTemperatureCorrectedThreshold"]}
{"id": "C362", "title": "Mechanical load factor of materials", "statement": "For all stresses, yield strengths and doses the load factor is at least 1, is 1 without stress, is monotone and saturates at 70 % of yield; the growth asserted holds for every dose.", "quantifier": "all real stresses, yield strengths and doses", "why_tests_cant": "a continuum of conditions", "anchors": ["tests/material_physics_integration_test.cpp:calculateMechanicalLoadFactor"]}
{"id": "C363", "title": "Combined damage of materials", "statement": "For every sound material and all conditions the damage is monotone in dose, temperature and stress, zero only without dose; cold enhances damage and heat anneals it, as documented.", "quantifier": "all materials and real conditions", "why_tests_cant": "a continuum of conditions", "anchors": ["tests/material_physics_integration_test.cpp:calculateCombinedDamageEffect", "tests/material_physics_integration_test.cpp:calculateSynergyFactor"]}
{"id": "C364", "title": "Choice of the material", "statement": "For every mission, flux and temperature the material chosen has the highest score, and the test's assertions about it hold.", "quantifier": "all missions, fluxes and temperatures", "why_tests_cant": "a continuum of environments", "anchors": ["tests/material_physics_integration_test.cpp:testMissionOptimizationWithMaterials", "tests/material_physics_integration_test.cpp:loadMaterialDatabase"]}
{"id": "C365", "title": "Bit flips of the IEEE-754 test", "statement": "For every value of any size and every position: a position inside flips exactly that bit, a position outside changes nothing; two flips change exactly the two bits, or nothing.", "quantifier": "all sizes, values and positions", "why_tests_cant": "arbitrary positions, also negative", "anchors": ["test/verification/ieee754_tmr_test.cpp:flipBit", "test/verification/ieee754_tmr_test.cpp:injectTwoBitError"]}
{"id": "C366", "title": "Voter under the IEEE-754 test", "statement": "For every binary format, triple of values and checksum function the voter reports success; of two equal values it returns one, of three finite different values the middle one.", "quantifier": "all formats, triples and checksum functions", "why_tests_cant": "three full floating-point values at once", "anchors": ["test/verification/ieee754_tmr_test.cpp:createTMRWithValues", "test/verification/ieee754_tmr_test.cpp:testFloatTMR", "include/rad_ml/core/redundancy/space_enhanced_tmr.hpp:SpaceEnhancedTMR::get"]}
{"id": "C367", "title": "Verdicts of the IEEE-754 test", "statement": "For all finite triples and every test name the verdict is as the test documents.", "quantifier": "all formats, finite triples, tolerances and names", "why_tests_cant": "all triples of floating-point values", "anchors": ["test/verification/ieee754_tmr_test.cpp:testFloatTMR"]}
{"id": "C368", "title": "Flipped doubles", "statement": "For every double and every two bits: when the voter returns the undamaged value, and whether the test notices when it does not.", "quantifier": "all doubles and positions", "why_tests_cant": "all doubles", "anchors": ["test/verification/ieee754_tmr_test.cpp:testDoubleTMRWithBitFlips"]}
{"id": "C369", "title": "Non-finite values and the summary of the IEEE-754 test", "statement": "For all triples with values that are not finite the tests have the outcome documented, and the program returns 0 exactly if all tests passed.", "quantifier": "all triples with NaN or infinities; all lists of results", "why_tests_cant": "all bit patterns of NaN", "anchors": ["test/verification/ieee754_tmr_test.cpp:testFloatTMR", "test/verification/ieee754_tmr_test.cpp:main"]}
{"id": "C370", "title": "Mission simulator example: protection", "statement": "For every mission, radiation, clock and list of weights that are not NaN the inference after the mission uses the weights as drawn and the statistics printed are 0 and 0.", "quantifier": "all missions, random draws, clocks, comparison and checksum functions, and lists of weights of any length", "why_tests_cant": "all missions and random draws", "anchors": ["examples/mission_simulator/mission_simulator.cpp:main", "examples/mission_simulator/mission_simulator.cpp:runInference", "examples/mission_simulator/mission_simulator.cpp:getErrorStats", "include/rad_ml/testing/mission_simulator.hpp:runSimulation"]}
{"id": "C371", "title": "Mission simulator example: adaptation", "statement": "After every sequence of environments the scrubbing interval of the network and of all weights follows the last one, and recovery once enabled stays enabled with a checkpoint interval of 60 s.", "quantifier": "all sequences of environments of any length and all networks", "why_tests_cant": "sequences of any length", "anchors": ["examples/mission_simulator/mission_simulator.cpp:main", "examples/mission_simulator/mission_simulator.cpp:setScrubInterval", "examples/mission_simulator/mission_simulator.cpp:enableRecovery"]}
{"id": "C372", "title": "Mission simulator example: boost", "statement": "The boost raises solar activity and the anomaly, never lowers shielding below 0.5 mm, and changes nothing else; it lasts until the environment of the simulator changes.", "quantifier": "all environments, factors of at least 1 and missions", "why_tests_cant": "all missions and random draws", "anchors": ["examples/mission_simulator/mission_simulator.cpp:boostRadiationRates", "include/rad_ml/testing/mission_simulator.hpp:updateEnvironment"]}
{"id": "C373", "title": "Accuracy test: vote", "statement": "For every odd number of runs without NaN the vote reaches a threshold exactly if more than half of the runs do, and a majority of equal results wins.", "quantifier": "all odd levels of redundancy, results and thresholds", "why_tests_cant": "any number of runs with arbitrary real results", "anchors": ["test/model_accuracy_test.cpp:applyTMR"]}
{"id": "C374", "title": "Accuracy test: parameters and injection", "statement": "Setting and reading parameters are inverse, injection damages exactly the parameters drawn in exactly the bit drawn, and without errors all levels count the same predictions.", "quantifier": "all networks, samples, rates, draws and levels", "why_tests_cant": "all networks and random draws", "anchors": ["test/model_accuracy_test.cpp:getParameters", "test/model_accuracy_test.cpp:setParameters", "test/model_accuracy_test.cpp:testAccuracy"]}
{"id": "C375", "title": "Accuracy test: improvements", "statement": "The table of improvements shows the improvement of the accuracies measured.", "quantifier": "all measured accuracies and table sizes", "why_tests_cant": "all accuracies", "anchors": ["test/model_accuracy_test.cpp:testAccuracy"]}
{"id": "C376", "title": "Simple accuracy test", "statement": "With a majority of undamaged runs the vote is the input; the vote is finite; acceptance is by relative deviation; without errors every trial is accepted.", "quantifier": "all inputs, results, draws, tolerances and numbers of runs and trials", "why_tests_cant": "any number of runs with arbitrary results", "anchors": ["test/simple_model_accuracy_test.cpp:computeWithErrors", "test/simple_model_accuracy_test.cpp:applyTMR", "test/simple_model_accuracy_test.cpp:isAcceptable", "test/simple_model_accuracy_test.cpp:testProtectionEffectiveness"]}
{"id": "C377", "title": "Framework verification test: verdict", "statement": "The test passes exactly if the value written over the second weight differs from it and the undamaged output is finite.", "quantifier": "all weights, biases, corruptions, clocks, random numbers, checksum and arithmetic functions", "why_tests_cant": "all clocks, values and random numbers", "anchors": ["test/verification/framework_verification_test.cpp:test_protection_mechanisms", "test/verification/framework_verification_test.cpp:forward", "test/verification/framework_verification_test.cpp:corruptWeight"]}
{"id": "C378", "title": "Framework verification test: statistics", "statement": "All errors detected are corrected; how many are shown; what verify returns.", "quantifier": "all weights, biases and corruptions", "why_tests_cant": "all values", "anchors": ["test/verification/framework_verification_test.cpp:test_protection_mechanisms", "test/verification/framework_verification_test.cpp:printErrorStats", "test/verification/framework_verification_test.cpp:corruptBias"]}
{"id": "C379", "title": "Voting test: damage injected", "statement": "Single, adjacent, burst, byte and word errors change exactly the bits they name; a position outside the type is undefined.", "quantifier": "all values, positions and cluster lengths", "why_tests_cant": "all positions and values", "anchors": ["test/verification/enhanced_tmr_test.cpp:injectSingleBitError", "test/verification/enhanced_tmr_test.cpp:injectAdjacentBitErrors", "test/verification/enhanced_tmr_test.cpp:injectByteError", "test/verification/enhanced_tmr_test.cpp:injectWordError", "test/verification/enhanced_tmr_test.cpp:injectBurstError"]}
{"id": "C380", "title": "Voting test: assertions, 32 bits", "statement": "For 32-bit types no assertion fails and nothing is undefined, and the extreme case is still voted right.", "quantifier": "all values, sane equalities, garbage and coins", "why_tests_cant": "all values and uninitialised reads", "anchors": ["test/verification/enhanced_tmr_test.cpp:testVotingMechanisms"]}
{"id": "C381", "title": "Voting test: assertions, 64 bits", "statement": "For 64-bit types no assertion fails and nothing is undefined.", "quantifier": "all values, equalities, garbage and coins", "why_tests_cant": "undefined shifts are invisible to a test", "anchors": ["test/verification/enhanced_tmr_test.cpp:testVotingMechanisms", "test/verification/enhanced_tmr_test.cpp:main"]}
{"id": "C382", "title": "Voting test: statistics", "statement": "Every mechanism succeeds in every trial of every kind of damage to one copy.", "quantifier": "all numbers of trials, originals, kinds, garbage and coins", "why_tests_cant": "any number of trials", "anchors": ["test/verification/enhanced_tmr_test.cpp:runStatisticalTests"]}
{"id": "C383", "title": "Voter demonstration: health-weighted voter", "statement": "The first test prints the stored value three times, the two-copy test reads the value that was not corrupted, the random test reads and restores a value hit in one copy.", "quantifier": "all stored and overwriting values, all positions", "why_tests_cant": "all values and positions", "anchors": ["examples/enhanced_features_test/simple_test.cpp:HealthWeightedTMR", "examples/enhanced_features_test/simple_test.cpp:testHealthWeightedTMR", "examples/enhanced_features_test/simple_test.cpp:main"]}
{"id": "C384", "title": "Voter demonstration: random trials of the approximate voter", "statement": "A trial never changes the value by repair, and succeeds exactly if the exact copy is spared.", "quantifier": "all hit lists of sane values", "why_tests_cant": "any hits of a trial", "anchors": ["examples/enhanced_features_test/simple_test.cpp:ApproximateTMR", "examples/enhanced_features_test/simple_test.cpp:testApproximateTMR"]}
{"id": "C385", "title": "Voter demonstration: approximate voter of floats", "statement": "A stored real is read back; a corrupted exact copy is masked.", "quantifier": "all real values and corruptions", "why_tests_cant": "all values", "anchors": ["examples/enhanced_features_test/approx_tmr_test.cpp:ApproximateTMR", "examples/enhanced_features_test/approx_tmr_test.cpp:main"]}
{"id": "C386", "title": "Network validation: data set", "statement": "The data set has the size asked for, and every sample the target class of the sum of its inputs.", "quantifier": "all sizes, streams of draws and sums", "why_tests_cant": "all sizes and seeds", "anchors": ["test/verification/neural_network_validation.cpp:generateSyntheticDataset"]}
{"id": "C387", "title": "Network validation: accuracy and effectiveness", "statement": "The accuracy is the percentage of predictions that agree with their targets, 100 exactly if all do; the effectiveness is the ratio of the accuracies.", "quantifier": "all lists of predictions and targets", "why_tests_cant": "all predictions", "anchors": ["test/verification/neural_network_validation.cpp:calculateAccuracy", "test/verification/neural_network_validation.cpp:testInSpaceEnvironment"]}
{"id": "C388", "title": "Network validation: walk through the orbit", "statement": "A sample under radiation is judged by a weighted average of its predictions, one per position, which stays within their range.", "quantifier": "all networks, data sets and upset probabilities", "why_tests_cant": "any network and any trajectory length", "anchors": ["test/verification/neural_network_validation.cpp:testInSpaceEnvironment"]}
{"id": "C389", "title": "Network validation: every mission is tested", "statement": "Each of the 48 pairs of mission and protection level is tested and gives a result.", "quantifier": "all networks, data sets and upset probabilities", "why_tests_cant": "undefined casts are invisible to a test", "anchors": ["test/verification/neural_network_validation.cpp:testInSpaceEnvironment", "test/verification/neural_network_validation.cpp:testProtectionLevels", "test/verification/neural_network_validation.cpp:main"]}
{"id": "C390", "title": "Reed-Solomon demonstrations: errors injected, counted, printed", "statement": "Injection flips exactly the bits whose draw is below the rate; the counts of bit and byte errors bound each other and are zero exactly for equal words; the printed digits determine the word.", "quantifier": "all data, rates, draws and words", "why_tests_cant": "all words and draws", "anchors": ["include/rad_ml/neural/advanced_reed_solomon.hpp:apply_bit_errors", "rs_simple_test.cpp:main", "rs_failure_test.cpp:print_binary", "rs_test.cpp:print_binary"]}
{"id": "C391", "title": "Reed-Solomon demonstrations: trials", "statement": "The demonstrations run with every error rate and report the share of trials that recover the weight.", "quantifier": "all rates, draws, weights and numbers of trials", "why_tests_cant": "any number of trials; undefined writes are invisible to a test", "anchors": ["rs_failure_test.cpp:test_rs_at_error_rate", "rs_test.cpp:main", "rs_simple_test.cpp:main", "galois_field_test.cpp:main"]}
{"id": "C392", "title": "Fixed-point example: activation and prediction", "statement": "The branchless maximum gives the larger of two values, and the network gives a prediction for its inputs.", "quantifier": "all raw values of 32 bits, all weights and inputs", "why_tests_cant": "all pairs of 32-bit values; signed overflow is invisible to a test", "anchors": ["examples/simple_nn/main.cpp:max_branchless", "examples/simple_nn/main.cpp:predict", "examples/simple_nn/main.cpp:main"]}
{"id": "C393", "title": "Fixed-point example: upsets of the weights", "statement": "With at most one copy of every weight overwritten predictions stay the same and repair restores the network.", "quantifier": "all weights, upsets and inputs", "why_tests_cant": "all values and histories of upsets", "anchors": ["examples/simple_nn/main.cpp:SimpleNeuralNetwork", "examples/simple_nn/main.cpp:repair"]}
