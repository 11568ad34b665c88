# Formal model of Space-Radiation-Tolerant in Lean 4 — design

## Layout
* `properties.jsonl` – the properties, in terms of the API. `MANIFEST.json` – theorem names and status of each.
* `lean/Verif/Spec/*.lean`   – small independent specifications (majority of bits, float classes and `==`, byte windows, faults, polynomials over GF(2)).
* `lean/Verif/Model/*.lean`  – the model of the C++ code, function by function; every definition cites file:lines.
* `lean/Verif/Lemmas/*.lean` – auxiliary lemmas.
* `lean/Verif/Props/*.lean`  – the property theorems (named `Cnn_...`) and, beside each, an `example` exhibiting a
  non-trivial case that meets its hypotheses. Theorems named `..._partial` prove part of a property; theorems named
  `..._violated` prove (with a concrete witness, or for all inputs) that the code breaks the property as stated.
  Specifications particular to one property (abstract states, histories, reachability) stand at the top of its Props file.
* `seeded/LOG.jsonl` – wrong programs tried against the theorems.

## Modelling conventions
* An integer of `w` bits is `BitVec w`; unsigned arithmetic wraps as in C++; signed overflow, shifts by at least the
  width, out-of-range indexing, division by zero and reads of indeterminate values are *undefined behaviour* and are a distinct
  outcome (`Outcome.ub`, or `none` where the comment says so), never a default value.
* `float`/`double` as stored data: bit patterns; `==` is an explicit argument of the model where it
  matters, so theorems hold for IEEE equality as well as for integer equality. Floating-point *arithmetic* on scores, rates and
  weights is modelled exactly (over ℚ or ℝ), or is an uninterpreted parameter (neural networks); rounding is not modelled. Each such definition says so.
* Loops are folds/recursions with the same iteration order as the source.
* Corruption (radiation) is an explicit operation on the model state, able to write arbitrary values. Random draws are arguments,
  so theorems quantify over every generator and seed.
* Templates are modelled polymorphically when the code only uses `==`/`<`, else over bit vectors of the type's width.
* Clocks are explicit inputs; mutexes are modelled only where lock re-acquisition or interleaving matters.
* Exceptions are a distinct outcome. Allocation failure (`bad_alloc`) and I/O are not modelled.
* A header that does not compile as committed is modelled as written, and its manifest note says so.

## Properties: what is modelled and how it is proved
| Id | Title | Model module(s) | How proved | Status |
|----|-------|-----------------|------------|--------|
| C01 | Two agreeing copies always win the vote | EnhancedVoting | all un-weighted strategies over bit vectors of any width, indeterminate upper bits as an arbitrary argument; bitwise extensionality | proved (3 theorems) |
| C02 | bitLevelVote is the per-bit majority | EnhancedVoting | all un-weighted strategies over bit vectors of any width, indeterminate upper bits as an arbitrary argument; bitwise extensionality | proved (2 theorems) |
| C03 | All un-weighted strategies compute the same result | EnhancedVoting | all un-weighted strategies over bit vectors of any width, indeterminate upper bits as an arbitrary argument; bitwise extensionality | proved (3 theorems) |
| C04 | Fault-pattern classification is sound and complete for its categories | EnhancedVoting | `detectFaultPattern` and helpers; case analysis; loop invariant for `areAdjacentBits` | partial (8 theorems) |
| C05 | Weighted voting respects weights | WeightedVoting | weights exact rationals; order reasoning | proved (2 theorems) |
| C06 | TMR masks any corruption of one copy | Tmr | state machine with statistics and callback log; invariant over operation lists | proved (3 theorems) |
| C07 | TMR error statistics are consistent for every history | Tmr | state machine with statistics and callback log; invariant over operation lists | proved (2 theorems) |
| C08 | Raw copy access is bounds-checked | Tmr | state machine with statistics and callback log; invariant over operation lists | proved (1 theorems) |
| C09 | CRC-32 detects every error burst of at most 32 bits | Crc | bitwise CRC-32 on byte lists; one bit step is injective, window argument by induction on length | proved (4 theorems) |
| C10 | EnhancedTMR survives arbitrary corruption of one replica including its checksum | EnhancedTmr | state machine; case analysis on checksum validity, C09 for value corruptions | proved (4 theorems) |
| C11 | EnhancedTMR survives corruption of two replicas' values | EnhancedTmr | state machine; case analysis on checksum validity, C09 for value corruptions | proved (2 theorems) |
| C12 | EnhancedTMR statistics account for every get | EnhancedTmr | state machine; case analysis on checksum validity, C09 for value corruptions | proved (4 theorems) |
| C13 | SpaceEnhancedTMR::get reports success only with justification | SpaceTmr | case analysis on replicas; fuel-free call relation, non-termination by a cycle | partial (6 theorems) |
| C14 | SpaceEnhancedTMR::verify means the replicas are healthy | SpaceTmr | case analysis on replicas; fuel-free call relation, non-termination by a cycle | partial (2 theorems) |
| C15 | SpaceEnhancedTMR float voting terminates | SpaceTmr | case analysis on replicas; fuel-free call relation, non-termination by a cycle | partial (2 theorems) |
| C16 | Health scores stay within bounds for every history | HealthTmr | scores over ℚ; invariant over histories; weight comparison | proved (3 theorems) |
| C17 | HealthWeightedTMR returns the stored value when at least one replica is provably intact | HealthTmr | scores over ℚ; invariant over histories; weight comparison | proved (2 theorems) |
| C18 | ApproximateTMR returns what was stored | ApproximateTmr | integers and float patterns; bit-vector arithmetic, witnesses for the false parts | partial (12 theorems) |
| C19 | TemporalRedundancy returns the most common result | TemporalRedundancy | induction on the result list | proved (4 theorems) |
| C20 | Checkpoint store is bounded and ordered | Checkpoint | refinement to a list suffix; induction on histories | proved (3 theorems) |
| C21 | Rollback returns the newest acceptable checkpoint | Checkpoint | refinement to a list suffix; induction on histories | proved (2 theorems) |
| C22 | Table arithmetic implements a field | GaloisField | table construction loop; finite tables evaluated by the kernel over the whole field, then algebra against polynomial arithmetic (Spec/Gf) | partial (9 theorems) |
| C23 | Reed-Solomon correction repairs up to t symbol errors | ReedSolomon | encoder, decoder, interleaver with undefined behaviour as an outcome; case analysis and witnesses | partial (4 theorems) |
| C24 | Interleaving round-trips | ReedSolomon | encoder, decoder, interleaver with undefined behaviour as an outcome; case analysis and witnesses | partial (3 theorems) |
| C25 | Reed-Solomon encode is systematic and decode of a clean codeword is the identity | ReedSolomon | encoder, decoder, interleaver with undefined behaviour as an outcome; case analysis and witnesses | partial (9 theorems) |
| C26 | Hamming protection corrects every single-bit upset | Multibit | linearity of parity; whole-domain enumeration of bit positions | partial (3 theorems) |
| C27 | SECDED detects every double-bit upset | Multibit | linearity of parity; whole-domain enumeration of bit positions | partial (4 theorems) |
| C28 | Bit interleaving is a bijection | Multibit | linearity of parity; whole-domain enumeration of bit positions | proved (4 theorems) |
| C29 | FixedVector refines a bounded sequence | FixedContainers | refinement to a bounded list / finite map over histories | proved (2 theorems) |
| C30 | FixedMap refines a finite map | FixedContainers | refinement to a bounded list / finite map over histories | proved (2 theorems) |
| C31 | StaticAllocator never hands out overlapping or out-of-range blocks | StaticAllocator | invariant over histories | partial (5 theorems) |
| C32 | Fixed-point arithmetic is exact within range | FixedPoint | integer arithmetic on raw values | partial (8 theorems) |
| C33 | Branchless operations equal their branching specifications | MathOps | bit-vector arithmetic | proved (3 theorems) |
| C34 | Bit-manipulation helpers act on exactly the named bit | MathOps | bit-vector arithmetic | partial (5 theorems) |
| C35 | InterleavedBitMemory tolerates upsets as documented | AlignedMemory | exact effect of every upset pattern | partial (4 theorems) |
| C36 | Protected memory block CRC and restore | CoreScrubbing, Crc | C09 transported to the table-driven CRC | proved (5 theorems) |
| C37 | MemoryScrubber (memory/) detects corruption and never reports clean memory | Scrubber, CrcTables | linearity of CRC; table check in the kernel; witnesses | partial (7 theorems) |
| C38 | Allocation accounting of the unified memory manager | UnifiedMemory | bookkeeping and lock discipline; invariant over histories, witnesses | partial (4 theorems) |
| C39 | Protected allocations can be verified and released | UnifiedMemory | bookkeeping and lock discipline; invariant over histories, witnesses | partial (10 theorems) |
| C40 | RadiationMappedAllocator keeps live blocks disjoint and inside their zone | MappedAllocator | invariant over histories | partial (7 theorems) |
| C41 | Error tracker counts every recorded error and bounds its history | ErrorTracker | interleavings of per-thread programs; invariant of the transition system | partial (9 theorems) |
| C42 | Status and Result types propagate success and failure faithfully | ErrorResult | algebraic laws for all results and callables | partial (11 theorems) |
| C43 | Adaptive framework escalates and never oscillates within the hysteresis window | AdaptiveFramework | transition rule; induction over histories | partial (13 theorems) |
| C44 | Adaptive protection level follows the smoothed flux monotonically | AdaptiveProtection | update rule over ℚ; convergence by geometric bound | partial (12 theorems) |
| C45 | Voting confidence is a proper score | WeightedVoting, EnhancedVoting | order reasoning; list induction | proved (1 theorems) |
| C46 | Batch voting is safe, order preserving and masks single corruptions | WeightedVoting, EnhancedVoting | order reasoning; list induction | proved (1 theorems) |
| C47 | EnhancedTMR::detectFaultPattern is defined and reports single-bit faults exactly | EnhancedTmr | bit-vector case analysis | partial (2 theorems) |
| C48 | Memory region registry of the core scrubber | CoreScrubbing | registry refinement | proved (1 theorems) |
| C49 | HealthWeightedTMR masks a single replica whose checksum is forged as well | HealthTmr | weight comparison; witness history | partial (2 theorems) |
| C50 | EnhancedStuckBitTMR masks every history of corruptions of one copy | StuckBit | invariant over corruption histories | proved (1 theorems) |
| C51 | EnhancedStuckBitTMR repair restores the redundancy | StuckBit | invariant over corruption histories | partial (2 theorems) |
| C52 | EnhancedStuckBitTMR health and stuck-bit reports are sound | StuckBit | invariant over corruption histories | proved (2 theorems) |
| C53 | HybridRedundancy masks one corrupted copy and can roll back | StuckBit (hybrid), Checkpoint | case analysis; rollback | partial (4 theorems) |
| C54 | AlignedProtectedMemory masks upsets and does not let them accumulate | AlignedMemory | state machine with scrubbing; case analysis | proved (2 theorems) |
| C55 | ProtectedValue returns the stored value or an error, and propagates errors | AlignedMemory | state machine with scrubbing; case analysis | partial (5 theorems) |
| C56 | MultibitProtection: upsets in the check bytes do not change the value | Multibit | syndrome algebra; whole-domain tables | partial (4 theorems) |
| C57 | MultibitProtection REED_SOLOMON mode: single-byte correction, detection of every corruption | Multibit | syndrome algebra; whole-domain tables | partial (4 theorems) |
| C58 | ChecksumProtection detects every corruption of the value | Multibit | syndrome algebra; whole-domain tables | partial (2 theorems) |
| C59 | Registry of memory::MemoryScrubber | Scrubber | registry refinement over histories | proved (1 theorems) |
| C60 | RadiationMappedAllocator places data by criticality | MappedAllocator | search order; sums over live blocks | partial (4 theorems) |
| C61 | RadiationMappedAllocator usage reports and vulnerability score | MappedAllocator | search order; sums over live blocks | proved (3 theorems) |
| C62 | Error rate reported by RadiationErrorTracker | ErrorTracker | rates over ℚ | partial (5 theorems) |
| C63 | Error handler: reporting level, throwing, callbacks | ErrorResult | state machine of handler and callbacks | partial (6 theorems) |
| C64 | Life cycle of a MultibitProtection object | Multibit | life-cycle state machine | proved (4 theorems) |
| C65 | Usable memory returned by the unified memory manager | UnifiedMemory | address arithmetic; ownership invariant | partial (3 theorems) |
| C66 | Exclusive ownership by RadiationTolerantPtr | UnifiedMemory | address arithmetic; ownership invariant | partial (5 theorems) |
| C67 | Monitored TMR container: a fault in one copy is masked and repaired | MonitoredTmr | histories of reads, writes, strikes; lock-level model for C71 | partial (4 theorems) |
| C68 | Monitored TMR container: health scores | MonitoredTmr | histories of reads, writes, strikes; lock-level model for C71 | partial (3 theorems) |
| C69 | Monitored TMR container: verification | MonitoredTmr | histories of reads, writes, strikes; lock-level model for C71 | proved (2 theorems) |
| C70 | Monitored TMR container: choice among three different copies | MonitoredTmr | histories of reads, writes, strikes; lock-level model for C71 | partial (3 theorems) |
| C71 | Monitored TMR container: calls from several threads finish | MonitoredTmr | histories of reads, writes, strikes; lock-level model for C71 | partial (2 theorems) |
| C72 | BasicTMR, EnhancedTMR, HybridRedundancy strategies: honest reports | Strategies | executions are arguments; case analysis, invariants over histories | partial (7 theorems) |
| C73 | StuckBitTMR strategy | Strategies | executions are arguments; case analysis, invariants over histories | partial (8 theorems) |
| C74 | HealthWeightedTMR strategy | Strategies | executions are arguments; case analysis, invariants over histories | partial (7 theorems) |
| C75 | Environment-driven choice of the protection level | Strategies | executions are arguments; case analysis, invariants over histories | proved (3 theorems) |
| C76 | Checkpoint interval adjusted to the environment | Strategies | executions are arguments; case analysis, invariants over histories | proved (3 theorems) |
| C77 | Per-layer protection policy | Strategies | executions are arguments; case analysis, invariants over histories | proved (3 theorems) |
| C78 | Mission protection controller | Strategies | executions are arguments; case analysis, invariants over histories | partial (6 theorems) |
| C79 | Monitored TMR container: statistics, periodic verification, raw access, regeneration | MonitoredTmr | counter invariants | proved (6 theorems) |
| C80 | Single-bit tools | FaultTools | bit and byte extensionality; draws are arguments | partial (6 theorems) |
| C81 | Systematic fault patterns | FaultTools | bit and byte extensionality; draws are arguments | partial (11 theorems) |
| C82 | Byte fault injector and resilience test | FaultTools | bit and byte extensionality; draws are arguments | partial (7 theorems) |
| C83 | Single event upset simulator | FaultTools | bit and byte extensionality; draws are arguments | proved (3 theorems) |
| C84 | Protection techniques compared by the test module | ProtectionTechniques | codeword tables over the whole domain; list induction | partial (11 theorems) |
| C85 | Protected network computes its parameters' function | ProtectedNetwork | refinement to a plain parameter function over all histories; float arithmetic a parameter | partial (7 theorems) |
| C86 | Protection level protects the weights | ProtectedNetwork | refinement to a plain parameter function over all histories; float arithmetic a parameter | partial (5 theorems) |
| C87 | Activation voting never makes results worse | ProtectedNetwork | refinement to a plain parameter function over all histories; float arithmetic a parameter | partial (6 theorems) |
| C88 | Layer view, copy, training and loss of the network | ProtectedNetwork | refinement to a plain parameter function over all histories; float arithmetic a parameter | partial (6 theorems) |
| C89 | BasicTMR and EnhancedTMR keep their value | BasicTmr | case analysis; order reasoning over ℚ | partial (9 theorems) |
| C90 | Physics-driven level and voting (header-only library) | BasicTmr | case analysis; order reasoning over ℚ | partial (11 theorems) |
| C91 | Physics formulas are bounded and monotone | PhysicsDriven, Strategies | real analysis (exp monotone), sums, invariants over histories | partial (5 theorems) |
| C92 | Resource allocation by sensitivity and environment | PhysicsDriven, Strategies | real analysis (exp monotone), sums, invariants over histories | partial (7 theorems) |
| C93 | Multi-scale manager updates each scale at its rate | PhysicsDriven, Strategies | real analysis (exp monotone), sums, invariants over histories | partial (9 theorems) |
| C94 | Physics-driven system protects according to layer, environment and mission phase | PhysicsDriven, Strategies | real analysis (exp monotone), sums, invariants over histories | partial (8 theorems) |
| C95 | Protected neural layer computes the plain layer | PhysicsDriven, Strategies | real analysis (exp monotone), sums, invariants over histories | partial (4 theorems) |
| C96 | Convolutional layer computes the zero-padded convolution | ConvLayer | loop nests as folds; sums over kernel positions; invariant over histories | proved (5 theorems) |
| C97 | Parameters of the convolutional layer survive upsets | ConvLayer | loop nests as folds; sums over kernel positions; invariant over histories | proved (6 theorems) |
| C98 | Starting and stopping the scrubbing thread | ScrubThread | transition systems; invariants over all interleavings, schedules as witnesses | proved (7 theorems) |
| C99 | Automatic scrubbing of a model | ScrubThread | transition systems; invariants over all interleavings, schedules as witnesses | partial (8 theorems) |
| C100 | Power-aware protection stays within the power budget | PowerAware | invariant of the greedy pass (whole steps above the minimum), over all histories; real exponential for the error rate | partial (3 theorems) |
| C101 | Power is spent where it protects most | PowerAware | invariant of the greedy pass (whole steps above the minimum), over all histories; real exponential for the error rate | partial (4 theorems) |
| C102 | Emergency levels when the minimum does not fit | PowerAware | invariant of the greedy pass (whole steps above the minimum), over all histories; real exponential for the error rate | partial (3 theorems) |
| C103 | Component registry and history independence of levels | PowerAware | invariant of the greedy pass (whole steps above the minimum), over all histories; real exponential for the error rate | proved (2 theorems) |
| C104 | Protection effectiveness and expected error rate | PowerAware | invariant of the greedy pass (whole steps above the minimum), over all histories; real exponential for the error rate | partial (5 theorems) |
| C105 | Diverse execution returns the reliability-weighted consensus | Diversity | map as a sorted list of entries; invariant over histories; loops by induction | proved (5 theorems) |
| C106 | Reliability scores follow behaviour | Diversity | map as a sorted list of entries; invariant over histories; loops by induction | partial (7 theorems) |
| C107 | Trained error lookup | ErrorLookup | state machine; induction over the training data | partial (6 theorems) |
| C108 | Logger threshold and files | Logger | state machine; induction over histories | partial (5 theorems) |
| C109 | Accelerator execution with software voting | HwAccel | voting loop by induction; real exponential | partial (4 theorems) |
| C110 | Accelerator reliability estimate | HwAccel | voting loop by induction; real exponential | partial (4 theorems) |
| C111 | Learning error predictor | ErrorPredictor | refinement of the NaN-aware network to real formulas; derivatives; exact rationals | partial (6 theorems) |
| C112 | Piecewise error rate prediction | ErrorPredictor | refinement of the NaN-aware network to real formulas; derivatives; exact rationals | partial (4 theorems) |
| C113 | Skip connections of a residual network | ResidualNet | keys and files as byte strings; injectivity of keys, inverse of the encoding by induction; invariant over histories | partial (5 theorems) |
| C114 | Saving and loading a residual network | ResidualNet | keys and files as byte strings; injectivity of keys, inverse of the encoding by induction; invariant over histories | partial (7 theorems) |
| C115 | Training and evaluating a residual network | ResidualNet | keys and files as byte strings; injectivity of keys, inverse of the encoding by induction; invariant over histories | partial (3 theorems) |
| C116 | Radiation flux and upset probability at a position | RadEnvironment | real functions; monotonicity and bounds; spherical angle and its triangle inequality; induction over histories | partial (6 theorems) |
| C117 | Missions differ as documented | RadEnvironment | real functions; monotonicity and bounds; spherical angle and its triangle inequality; induction over histories | partial (4 theorems) |
| C118 | Positions: distances and orbits | RadEnvironment | real functions; monotonicity and bounds; spherical angle and its triangle inequality; induction over histories | partial (9 theorems) |
| C119 | Solar flares | RadEnvironment | real functions; monotonicity and bounds; spherical angle and its triangle inequality; induction over histories | partial (4 theorems) |
| C120 | Testing one architecture | ArchTester | real formulas; fold invariants for the search; induction over trials and over histories | partial (6 theorems) |
| C121 | Best architecture and dropout | ArchTester | real formulas; fold invariants for the search; induction over trials and over histories | proved (2 theorems) |
| C122 | Monte Carlo tests | ArchTester | real formulas; fold invariants for the search; induction over trials and over histories | partial (5 theorems) |
| C123 | Width and dropout ranges | ArchTester | real formulas; fold invariants for the search; induction over trials and over histories | partial (3 theorems) |
| C124 | Results file of the architecture tester | ArchTester | real formulas; fold invariants for the search; induction over trials and over histories | partial (6 theorems) |
| C125 | Search space of the architecture search | AutoSearch | membership equations of the grid; loop invariants on the map of results; induction over passes and generations for every random stream | partial (5 theorems) |
| C126 | Comparing network configurations | AutoSearch | membership equations of the grid; loop invariants on the map of results; induction over passes and generations for every random stream | partial (3 theorems) |
| C127 | Grid search | AutoSearch | membership equations of the grid; loop invariants on the map of results; induction over passes and generations for every random stream | partial (5 theorems) |
| C128 | Random search | AutoSearch | membership equations of the grid; loop invariants on the map of results; induction over passes and generations for every random stream | partial (4 theorems) |
| C129 | Evolutionary search | AutoSearch | membership equations of the grid; loop invariants on the map of results; induction over passes and generations for every random stream | partial (7 theorems) |
| C130 | Radiation-aware training | RadTraining | generic network interface with laws; invariant over epochs for every stream; recording network for the order of samples; concrete networks for the defects | partial (9 theorems) |
| C131 | Bit flips injected during training | RadTraining | generic network interface with laws; invariant over epochs for every stream; recording network for the order of samples; concrete networks for the defects | partial (5 theorems) |
| C132 | Criticality map | RadTraining | generic network interface with laws; invariant over epochs for every stream; recording network for the order of samples; concrete networks for the defects | partial (8 theorems) |
| C133 | Statistics of radiation-aware training | RadTraining | generic network interface with laws; invariant over epochs for every stream; recording network for the order of samples; concrete networks for the defects | partial (7 theorems) |
| C134 | Saved training results | RadTraining | generic network interface with laws; invariant over epochs for every stream; recording network for the order of samples; concrete networks for the defects | partial (4 theorems) |
| C135 | Predefined radiation environments | SpaceMission | phases as a list, environments on a heap of addresses; induction over phases for times, maxima and sums; case analysis over all targets | partial (4 theorems) |
| C136 | Environment at a time of a mission | SpaceMission | phases as a list, environments on a heap of addresses; induction over phases for times, maxima and sums; case analysis over all targets | partial (5 theorems) |
| C137 | Worst case and exposure of a mission | SpaceMission | phases as a list, environments on a heap of addresses; induction over phases for times, maxima and sums; case analysis over all targets | partial (6 theorems) |
| C138 | Standard missions | SpaceMission | phases as a list, environments on a heap of addresses; induction over phases for times, maxima and sums; case analysis over all targets | partial (6 theorems) |
| C139 | Encoding of a variational autoencoder | Autoencoder | object over an abstract network with laws, an inductive set of reachable objects; invariants over all calls; real analysis for divergence and gradients; induction over batches and epochs; byte strings for files | partial (4 theorems) |
| C140 | Sampling of latent vectors | Autoencoder | object over an abstract network with laws, an inductive set of reachable objects; invariants over all calls; real analysis for divergence and gradients; induction over batches and epochs; byte strings for files | partial (6 theorems) |
| C141 | Decoding, reconstruction and generation | Autoencoder | object over an abstract network with laws, an inductive set of reachable objects; invariants over all calls; real analysis for divergence and gradients; induction over batches and epochs; byte strings for files | partial (8 theorems) |
| C142 | Interpolation | Autoencoder | object over an abstract network with laws, an inductive set of reachable objects; invariants over all calls; real analysis for divergence and gradients; induction over batches and epochs; byte strings for files | partial (4 theorems) |
| C143 | Losses and gradients of the autoencoder | Autoencoder | object over an abstract network with laws, an inductive set of reachable objects; invariants over all calls; real analysis for divergence and gradients; induction over batches and epochs; byte strings for files | partial (6 theorems) |
| C144 | Splitting data and making batches | Autoencoder | object over an abstract network with laws, an inductive set of reachable objects; invariants over all calls; real analysis for divergence and gradients; induction over batches and epochs; byte strings for files | partial (6 theorems) |
| C145 | Metrics of production training | Autoencoder | object over an abstract network with laws, an inductive set of reachable objects; invariants over all calls; real analysis for divergence and gradients; induction over batches and epochs; byte strings for files | partial (4 theorems) |
| C146 | Effect of training | Autoencoder | object over an abstract network with laws, an inductive set of reachable objects; invariants over all calls; real analysis for divergence and gradients; induction over batches and epochs; byte strings for files | partial (5 theorems) |
| C147 | Protection of latent variables | Autoencoder | object over an abstract network with laws, an inductive set of reachable objects; invariants over all calls; real analysis for divergence and gradients; induction over batches and epochs; byte strings for files | partial (6 theorems) |
| C148 | Statistics and copies of the autoencoder | Autoencoder | object over an abstract network with laws, an inductive set of reachable objects; invariants over all calls; real analysis for divergence and gradients; induction over batches and epochs; byte strings for files | partial (5 theorems) |
| C149 | Files of the autoencoder | Autoencoder | object over an abstract network with laws, an inductive set of reachable objects; invariants over all calls; real analysis for divergence and gradients; induction over batches and epochs; byte strings for files | partial (6 theorems) |
| C150 | Event rates of RadiationSimulator | RadSimulator | real rates with exp; memory as bytes, random draws as streams; induction over events with a relation Hits | partial (7 theorems) |
| C151 | Simulated radiation effects on memory | RadSimulator | real rates with exp; memory as bytes, random draws as streams; induction over events with a relation Hits | partial (6 theorems) |
| C152 | Kinds of simulated events | RadSimulator | real rates with exp; memory as bytes, random draws as streams; induction over events with a relation Hits | proved (1 theorems) |
| C153 | Standard mission profiles | MissionSim | loop with milliseconds as integers, fuel shown sufficient; relation Steps between states; invariants over all histories; simulation relations between two simulators | partial (2 theorems) |
| C154 | Changes of environment in a mission | MissionSim | loop with milliseconds as integers, fuel shown sufficient; relation Steps between states; invariants over all histories; simulation relations between two simulators | partial (4 theorems) |
| C155 | Time in a simulated mission | MissionSim | loop with milliseconds as integers, fuel shown sufficient; relation Steps between states; invariants over all histories; simulation relations between two simulators | partial (8 theorems) |
| C156 | Statistics of a simulated mission | MissionSim | loop with milliseconds as integers, fuel shown sufficient; relation Steps between states; invariants over all histories; simulation relations between two simulators | proved (4 theorems) |
| C157 | Mission-critical uptime | MissionSim | loop with milliseconds as integers, fuel shown sufficient; relation Steps between states; invariants over all histories; simulation relations between two simulators | partial (4 theorems) |
| C158 | Adaptive protection level | MissionSim | loop with milliseconds as integers, fuel shown sufficient; relation Steps between states; invariants over all histories; simulation relations between two simulators | partial (4 theorems) |
| C159 | Scrubbing and correction in a simulated mission | MissionSim | loop with milliseconds as integers, fuel shown sufficient; relation Steps between states; invariants over all histories; simulation relations between two simulators | partial (4 theorems) |
| C160 | Quantum fields on a lattice | QuantumField | fields as lists of complex numbers with the row-major address computed as in the code; loops over positions shown to rewrite every point once; relation Rewritten as specification; induction over steps | partial (5 theorems) |
| C161 | Initial states of quantum fields | QuantumField | fields as lists of complex numbers with the row-major address computed as in the code; loops over positions shown to rewrite every point once; relation Rewritten as specification; induction over steps | proved (4 theorems) |
| C162 | Energy of a quantum field | QuantumField | fields as lists of complex numbers with the row-major address computed as in the code; loops over positions shown to rewrite every point once; relation Rewritten as specification; induction over steps | partial (5 theorems) |
| C163 | Free evolution of a quantum field | QuantumField | fields as lists of complex numbers with the row-major address computed as in the code; loops over positions shown to rewrite every point once; relation Rewritten as specification; induction over steps | partial (4 theorems) |
| C164 | Klein-Gordon and Dirac equations | QuantumField | fields as lists of complex numbers with the row-major address computed as in the code; loops over positions shown to rewrite every point once; relation Rewritten as specification; induction over steps | partial (4 theorems) |
| C165 | Maxwell equations and interacting fields | QuantumField | fields as lists of complex numbers with the row-major address computed as in the code; loops over positions shown to rewrite every point once; relation Rewritten as specification; induction over steps | partial (6 theorems) |
| C166 | Tunnelling probability | QuantumPhysics | scalar physics functions over real numbers, defect maps as functions to optional lists; real analysis (exp, sqrt) for ranges and monotonicity; induction over the list of types | proved (5 theorems) |
| C167 | Zero-point energy and defect energy | QuantumPhysics | scalar physics functions over real numbers, defect maps as functions to optional lists; real analysis (exp, sqrt) for ranges and monotonicity; induction over the list of types | partial (4 theorems) |
| C168 | Quantum corrections of defects | QuantumPhysics | scalar physics functions over real numbers, defect maps as functions to optional lists; real analysis (exp, sqrt) for ranges and monotonicity; induction over the list of types | partial (3 theorems) |
| C169 | Displacement cascades | QuantumPhysics | scalar physics functions over real numbers, defect maps as functions to optional lists; real analysis (exp, sqrt) for ranges and monotonicity; induction over the list of types | partial (2 theorems) |
| C170 | Displacement energy | QuantumPhysics | scalar physics functions over real numbers, defect maps as functions to optional lists; real analysis (exp, sqrt) for ranges and monotonicity; induction over the list of types | partial (2 theorems) |
| C171 | Decoherence and transitions | QuantumPhysics | scalar physics functions over real numbers, defect maps as functions to optional lists; real analysis (exp, sqrt) for ranges and monotonicity; induction over the list of types | proved (2 theorems) |
| C172 | Charge deposited by a particle | QuantumRadiation | composition of the former; memory as a list of bytes and the random engine as a stream in [0, 1); inductive relation Hits and number of differing bits as specification; induction over impacts | partial (4 theorems) |
| C173 | Temperature-corrected critical charge | QuantumRadiation | composition of the former; memory as a list of bytes and the random engine as a stream in [0, 1); inductive relation Hits and number of differing bits as specification; induction over impacts | partial (2 theorems) |
| C174 | Device sensitivity | QuantumRadiation | composition of the former; memory as a list of bytes and the random engine as a stream in [0, 1); inductive relation Hits and number of differing bits as specification; induction over impacts | partial (2 theorems) |
| C175 | Bit-flip probability | QuantumRadiation | composition of the former; memory as a list of bytes and the random engine as a stream in [0, 1); inductive relation Hits and number of differing bits as specification; induction over impacts | partial (3 theorems) |
| C176 | Size of multi-bit upsets | QuantumRadiation | composition of the former; memory as a list of bytes and the random engine as a stream in [0, 1); inductive relation Hits and number of differing bits as specification; induction over impacts | partial (3 theorems) |
| C177 | Radiation applied to memory | QuantumRadiation | composition of the former; memory as a list of bytes and the random engine as a stream in [0, 1); inductive relation Hits and number of differing bits as specification; induction over impacts | partial (5 theorems) |
| C178 | Metrics of a protection trial | NasaProtocol | ideal doubles (real, infinite or NaN) for the metrics; trials as arguments; report as the composition of per-environment functions; case analysis on environments, induction over trials and environments | partial (3 theorems) |
| C179 | Verification report | NasaProtocol | ideal doubles (real, infinite or NaN) for the metrics; trials as arguments; report as the composition of per-environment functions; case analysis on environments, induction over trials and environments | partial (4 theorems) |
| C180 | Verdict of the verification | NasaProtocol | ideal doubles (real, infinite or NaN) for the metrics; trials as arguments; report as the composition of per-environment functions; case analysis on environments, induction over trials and environments | partial (3 theorems) |
| C181 | Evaluation of protection techniques | NasaProtocol | ideal doubles (real, infinite or NaN) for the metrics; trials as arguments; report as the composition of per-environment functions; case analysis on environments, induction over trials and environments | partial (2 theorems) |
| C182 | Attainable thresholds | NasaProtocol | ideal doubles (real, infinite or NaN) for the metrics; trials as arguments; report as the composition of per-environment functions; case analysis on environments, induction over trials and environments | partial (3 theorems) |
| C183 | Required shielding and modifications | NasaProtocol | ideal doubles (real, infinite or NaN) for the metrics; trials as arguments; report as the composition of per-environment functions; case analysis on environments, induction over trials and environments | partial (4 theorems) |
| C184 | Correlation and percent difference | NasaProtocol | ideal doubles (real, infinite or NaN) for the metrics; trials as arguments; report as the composition of per-environment functions; case analysis on environments, induction over trials and environments | proved (3 theorems) |
| C185 | Solar and shielding factors | PhysicsSim | factors over real numbers (exp), configuration as a state machine with reachable states, random numbers as streams; induction over histories, segments and draws | proved (6 theorems) |
| C186 | Error rates of the physics simulator | PhysicsSim | factors over real numbers (exp), configuration as a state machine with reachable states, random numbers as streams; induction over histories, segments and draws | proved (4 theorems) |
| C187 | Events of a period | PhysicsSim | factors over real numbers (exp), configuration as a state machine with reachable states, random numbers as streams; induction over histories, segments and draws | partial (3 theorems) |
| C188 | Mission timeline | PhysicsSim | factors over real numbers (exp), configuration as a state machine with reachable states, random numbers as streams; induction over histories, segments and draws | partial (4 theorems) |
| C189 | Total dose of a mission | PhysicsSim | factors over real numbers (exp), configuration as a state machine with reachable states, random numbers as streams; induction over histories, segments and draws | partial (4 theorems) |
| C190 | Shielding by kind of effect | PhysicsSim | factors over real numbers (exp), configuration as a state machine with reachable states, random numbers as streams; induction over histories, segments and draws | partial (1 theorems) |
| C191 | Environment tables | PhysicsSim | factors over real numbers (exp), configuration as a state machine with reachable states, random numbers as streams; induction over histories, segments and draws | partial (4 theorems) |
| C192 | Multi-bit upsets applied to values | UpsetTmr | values of n bytes as bit vectors of 8n bits, random engine as streams; flips as a list of positions, distance and parity by induction over the list; weights and float TMR as state machines, invariants over histories | partial (10 theorems) |
| C193 | TMR-protected weights | UpsetTmr | values of n bytes as bit vectors of 8n bits, random engine as streams; flips as a list of positions, distance and parity by induction over the list; weights and float TMR as state machines, invariants over histories | partial (4 theorems) |
| C194 | Adaptive TMR weights | UpsetTmr | values of n bytes as bit vectors of 8n bits, random engine as streams; flips as a list of positions, distance and parity by induction over the list; weights and float TMR as state machines, invariants over histories | partial (7 theorems) |
| C195 | Space-optimised weights | UpsetTmr | values of n bytes as bit vectors of 8n bits, random engine as streams; flips as a list of positions, distance and parity by induction over the list; weights and float TMR as state machines, invariants over histories | partial (3 theorems) |
| C196 | Stuck-bit TMR of floating-point values | UpsetTmr | values of n bytes as bit vectors of 8n bits, random engine as streams; flips as a list of positions, distance and parity by induction over the list; weights and float TMR as state machines, invariants over histories | proved (3 theorems) |
| C197 | SimpleTMR of the Python bindings | UpsetTmr | values of n bytes as bit vectors of 8n bits, random engine as streams; flips as a list of positions, distance and parity by induction over the list; weights and float TMR as state machines, invariants over histories | proved (3 theorems) |
| C198 | Mission names | MissionProfile | profiles as constants per type, event rates as real numbers, configuration as a list of calls folded over a network; activations on ideal doubles (exp and tanh of Mathlib) | proved (3 theorems) |
| C199 | Mission settings | MissionProfile | profiles as constants per type, event rates as real numbers, configuration as a list of calls folded over a network; activations on ideal doubles (exp and tanh of Mathlib) | partial (6 theorems) |
| C200 | Mission simulation | MissionProfile | profiles as constants per type, event rates as real numbers, configuration as a list of calls folded over a network; activations on ideal doubles (exp and tanh of Mathlib) | partial (4 theorems) |
| C201 | Configuring networks for missions | MissionProfile | profiles as constants per type, event rates as real numbers, configuration as a list of calls folded over a network; activations on ideal doubles (exp and tanh of Mathlib) | partial (3 theorems) |
| C202 | Activation functions | MissionProfile | profiles as constants per type, event rates as real numbers, configuration as a list of calls folded over a network; activations on ideal doubles (exp and tanh of Mathlib) | partial (6 theorems) |
| C203 | Criticality scores | Hardening | metrics and budgets as reals, scores as ideal doubles; sort as any permutation without inversions; maps as functions; budget invariant by induction over the ranking; adaptive update as a step on a ladder of five levels | partial (5 theorems) |
| C204 | Ranking of components and layers | Hardening | metrics and budgets as reals, scores as ideal doubles; sort as any permutation without inversions; maps as functions; budget invariant by induction over the ranking; adaptive update as a step on a ladder of five levels | proved (2 theorems) |
| C205 | Fixed threshold hardening | Hardening | metrics and budgets as reals, scores as ideal doubles; sort as any permutation without inversions; maps as functions; budget invariant by induction over the ranking; adaptive update as a step on a ladder of five levels | proved (3 theorems) |
| C206 | Hardening within a budget | Hardening | metrics and budgets as reals, scores as ideal doubles; sort as any permutation without inversions; maps as functions; budget invariant by induction over the ranking; adaptive update as a step on a ladder of five levels | partial (5 theorems) |
| C207 | Hardening by layers | Hardening | metrics and budgets as reals, scores as ideal doubles; sort as any permutation without inversions; maps as functions; budget invariant by induction over the ranking; adaptive update as a step on a ladder of five levels | partial (5 theorems) |
| C208 | Adaptive hardening at run time | Hardening | metrics and budgets as reals, scores as ideal doubles; sort as any permutation without inversions; maps as functions; budget invariant by induction over the ranking; adaptive update as a step on a ladder of five levels | partial (5 theorems) |
| C209 | Estimated error rates and usage | Hardening | metrics and budgets as reals, scores as ideal doubles; sort as any permutation without inversions; maps as functions; budget invariant by induction over the ranking; adaptive update as a step on a ladder of five levels | partial (5 theorems) |
| C210 | Critical paths of a network | Topology | texts as lists of characters, networks as lists of layers, maps as functions; the path search refined to lists of names and characterised by induction on its depth, fuel shown sufficient; scores as ideal doubles | proved (2 theorems) |
| C211 | Connections and propagation factors | Topology | texts as lists of characters, networks as lists of layers, maps as functions; the path search refined to lists of names and characterised by induction on its depth, fuel shown sufficient; scores as ideal doubles | proved (5 theorems) |
| C212 | Topological criticality | Topology | texts as lists of characters, networks as lists of layers, maps as functions; the path search refined to lists of names and characterised by induction on its depth, fuel shown sufficient; scores as ideal doubles | partial (5 theorems) |
| C213 | Importance of parameters | Topology | texts as lists of characters, networks as lists of layers, maps as functions; the path search refined to lists of names and characterised by induction on its depth, fuel shown sufficient; scores as ideal doubles | partial (3 theorems) |
| C214 | Importance of activations | Topology | texts as lists of characters, networks as lists of layers, maps as functions; the path search refined to lists of names and characterised by induction on its depth, fuel shown sufficient; scores as ideal doubles | partial (4 theorems) |
| C215 | Effects of the space environment | Topology | texts as lists of characters, networks as lists of layers, maps as functions; the path search refined to lists of names and characterised by induction on its depth, fuel shown sufficient; scores as ideal doubles | partial (5 theorems) |
| C216 | Recommended protection levels | Topology | texts as lists of characters, networks as lists of layers, maps as functions; the path search refined to lists of names and characterised by induction on its depth, fuel shown sufficient; scores as ideal doubles | partial (5 theorems) |
| C217 | Radiation-adjusted criticality | Topology | texts as lists of characters, networks as lists of layers, maps as functions; the path search refined to lists of names and characterised by induction on its depth, fuel shown sufficient; scores as ideal doubles | proved (2 theorems) |
| C218 | Registry of layer policies | LayerPolicy | manager as an association list, policies as records, allocations as reals; registry by induction over histories against a per-layer specification; depth from path texts by a lemma on first occurrences in joined names | proved (2 theorems) |
| C219 | Policies for missions | LayerPolicy | manager as an association list, policies as records, allocations as reals; registry by induction over histories against a per-layer specification; depth from path texts by a lemma on first occurrences in joined names | partial (2 theorems) |
| C220 | Policies from an analysis | LayerPolicy | manager as an association list, policies as records, allocations as reals; registry by induction over histories against a per-layer specification; depth from path texts by a lemma on first occurrences in joined names | partial (6 theorems) |
| C221 | Depth decay of allocations | LayerPolicy | manager as an association list, policies as records, allocations as reals; registry by induction over histories against a per-layer specification; depth from path texts by a lemma on first occurrences in joined names | partial (4 theorems) |
| C222 | Configuring all layers for a mission | LayerPolicy | manager as an association list, policies as records, allocations as reals; registry by induction over histories against a per-layer specification; depth from path texts by a lemma on first occurrences in joined names | partial (4 theorems) |
| C223 | Weight sensitivities | FineTuning | floats as reals or ideal doubles, network as its gradients, layers and weights; sort results characterised as sorted permutations; counting lemmas on sorted lists; histories by induction | partial (3 theorems) |
| C224 | Protection profile of weights | FineTuning | floats as reals or ideal doubles, network as its gradients, layers and weights; sort results characterised as sorted permutations; counting lemmas on sorted lists; histories by induction | partial (3 theorems) |
| C225 | Protection of layers | FineTuning | floats as reals or ideal doubles, network as its gradients, layers and weights; sort results characterised as sorted permutations; counting lemmas on sorted lists; histories by induction | partial (4 theorems) |
| C226 | Adaptive Reed-Solomon selection | FineTuning | floats as reals or ideal doubles, network as its gradients, layers and weights; sort results characterised as sorted permutations; counting lemmas on sorted lists; histories by induction | partial (5 theorems) |
| C227 | Learning from observed errors | FineTuning | floats as reals or ideal doubles, network as its gradients, layers and weights; sort results characterised as sorted permutations; counting lemmas on sorted lists; histories by induction | partial (6 theorems) |
| C228 | Memory layout of weights | FineTuning | floats as reals or ideal doubles, network as its gradients, layers and weights; sort results characterised as sorted permutations; counting lemmas on sorted lists; histories by induction | partial (3 theorems) |
| C229 | Fine-tuning optimizer | FineTuning | floats as reals or ideal doubles, network as its gradients, layers and weights; sort results characterised as sorted permutations; counting lemmas on sorted lists; histories by induction | partial (5 theorems) |
| C230 | When quantum corrections apply | QuantumIntegration | doubles as reals with the real exponential and square root; monotony and range lemmas for nested min/max | proved (2 theorems) |
| C231 | Quantum correction terms | QuantumIntegration | doubles as reals with the real exponential and square root; monotony and range lemmas for nested min/max | partial (4 theorems) |
| C232 | Quantum enhancement factor | QuantumIntegration | doubles as reals with the real exponential and square root; monotony and range lemmas for nested min/max | partial (3 theorems) |
| C233 | Configuration for an environment | CustomDefense | strategies as objects, environments abstract; registrations by induction over histories from the end; networks over an arbitrary arithmetic, undefined reads explicit | partial (2 theorems) |
| C234 | Registration of custom strategies | CustomDefense | strategies as objects, environments abstract; registrations by induction over histories from the end; networks over an arbitrary arithmetic, undefined reads explicit | proved (1 theorems) |
| C235 | Strategy of a defense system | CustomDefense | strategies as objects, environments abstract; registrations by induction over histories from the end; networks over an arbitrary arithmetic, undefined reads explicit | partial (4 theorems) |
| C236 | Protection of values and networks by a defense system | CustomDefense | strategies as objects, environments abstract; registrations by induction over histories from the end; networks over an arbitrary arithmetic, undefined reads explicit | partial (3 theorems) |
| C237 | Bit interleaving example | CustomDefense | strategies as objects, environments abstract; registrations by induction over histories from the end; networks over an arbitrary arithmetic, undefined reads explicit | partial (4 theorems) |
| C238 | Hardened networks | CustomDefense | strategies as objects, environments abstract; registrations by induction over histories from the end; networks over an arbitrary arithmetic, undefined reads explicit | partial (4 theorems) |
| C239 | Measured cross-sections | CrossSection | reals; monotonicity and limit of the Weibull curve by analysis; fit by induction over the points | proved (2 theorems) |
| C240 | Weibull curve | CrossSection | reals; monotonicity and limit of the Weibull curve by analysis; fit by induction over the points | partial (3 theorems) |
| C241 | Weibull fit | CrossSection | reals; monotonicity and limit of the Weibull curve by analysis; fit by induction over the points | partial (4 theorems) |
| C242 | Reference rates | CrossSection | reals; monotonicity and limit of the Weibull curve by analysis; fit by induction over the points | partial (3 theorems) |
| C243 | Accuracy validator | ValidationTools | simulators as arbitrary machines, options by induction over the command line, checksum by invertibility of 33 mod 2^32, trials by induction, unset members as undefined reads | partial (6 theorems) |
| C244 | Validation reports | ValidationTools | simulators as arbitrary machines, options by induction over the command line, checksum by invertibility of 33 mod 2^32, trials by induction, unset members as undefined reads | partial (5 theorems) |
| C245 | Command line of the validation program | ValidationTools | simulators as arbitrary machines, options by induction over the command line, checksum by invertibility of 33 mod 2^32, trials by induction, unset members as undefined reads | partial (5 theorems) |
| C246 | SEU benchmark | ValidationTools | simulators as arbitrary machines, options by induction over the command line, checksum by invertibility of 33 mod 2^32, trials by induction, unset members as undefined reads | partial (7 theorems) |
| C247 | Standard tests | ValidationTools | simulators as arbitrary machines, options by induction over the command line, checksum by invertibility of 33 mod 2^32, trials by induction, unset members as undefined reads | partial (5 theorems) |
| C248 | Mission assessment | ValidationTools | simulators as arbitrary machines, options by induction over the command line, checksum by invertibility of 33 mod 2^32, trials by induction, unset members as undefined reads | partial (4 theorems) |
| C249 | Choice of the level | NeuralAdaptive | values as bit vectors of any width, environments and upset generators as parameters, statistics by an invariant over histories, Reed-Solomon construction linked to the model of C21 ff. | partial (4 theorems) |
| C250 | Levels none and moderate | NeuralAdaptive | values as bit vectors of any width, environments and upset generators as parameters, statistics by an invariant over histories, Reed-Solomon construction linked to the model of C21 ff. | partial (2 theorems) |
| C251 | Parity level | NeuralAdaptive | values as bit vectors of any width, environments and upset generators as parameters, statistics by an invariant over histories, Reed-Solomon construction linked to the model of C21 ff. | partial (4 theorems) |
| C252 | Reed-Solomon levels | NeuralAdaptive | values as bit vectors of any width, environments and upset generators as parameters, statistics by an invariant over histories, Reed-Solomon construction linked to the model of C21 ff. | partial (3 theorems) |
| C253 | Protection statistics | NeuralAdaptive | values as bit vectors of any width, environments and upset generators as parameters, statistics by an invariant over histories, Reed-Solomon construction linked to the model of C21 ff. | partial (6 theorems) |
| C254 | Critical weights | NeuralAdaptive | values as bit vectors of any width, environments and upset generators as parameters, statistics by an invariant over histories, Reed-Solomon construction linked to the model of C21 ff. | partial (4 theorems) |
| C255 | Protection within a budget | NeuralAdaptive | values as bit vectors of any width, environments and upset generators as parameters, statistics by an invariant over histories, Reed-Solomon construction linked to the model of C21 ff. | partial (3 theorems) |
| C256 | Counters of a benchmark | Benchmark | elements as the models of EnhancedTMR, HealthWeightedTMR and ApproximateTMR, the simulator, clock and hardening as parameters, counters by an invariant over iterations and intervals, tables as lists | partial (3 theorems) |
| C257 | Exposure of the protected elements | Benchmark | elements as the models of EnhancedTMR, HealthWeightedTMR and ApproximateTMR, the simulator, clock and hardening as parameters, counters by an invariant over iterations and intervals, tables as lists | partial (3 theorems) |
| C258 | Approximate elements and rates | Benchmark | elements as the models of EnhancedTMR, HealthWeightedTMR and ApproximateTMR, the simulator, clock and hardening as parameters, counters by an invariant over iterations and intervals, tables as lists | partial (3 theorems) |
| C259 | Benchmark suite | Benchmark | elements as the models of EnhancedTMR, HealthWeightedTMR and ApproximateTMR, the simulator, clock and hardening as parameters, counters by an invariant over iterations and intervals, tables as lists | partial (6 theorems) |
| C260 | Recommendation | Benchmark | elements as the models of EnhancedTMR, HealthWeightedTMR and ApproximateTMR, the simulator, clock and hardening as parameters, counters by an invariant over iterations and intervals, tables as lists | partial (3 theorems) |
| C261 | Exported tables | Benchmark | elements as the models of EnhancedTMR, HealthWeightedTMR and ApproximateTMR, the simulator, clock and hardening as parameters, counters by an invariant over iterations and intervals, tables as lists | partial (4 theorems) |
| C262 | NASA/ESA runner | NasaRunner | on top of the verification protocol of C178 ff.; rows as data | partial (5 theorems) |
| C263 | LET simulator: flux and distributions | LetSimulator | doubles as ideal doubles with the exponential, logarithm and powers of Mathlib; draws as parameters; events by induction over the particles | partial (4 theorems) |
| C264 | LET simulator: empirical laws | LetSimulator | doubles as ideal doubles with the exponential, logarithm and powers of Mathlib; draws as parameters; events by induction over the particles | partial (2 theorems) |
| C265 | LET simulator: Bethe–Bloch | LetSimulator | doubles as ideal doubles with the exponential, logarithm and powers of Mathlib; draws as parameters; events by induction over the particles | partial (3 theorems) |
| C266 | LET simulator: error model | LetSimulator | doubles as ideal doubles with the exponential, logarithm and powers of Mathlib; draws as parameters; events by induction over the particles | partial (5 theorems) |
| C267 | LET simulator: simulation | LetSimulator | doubles as ideal doubles with the exponential, logarithm and powers of Mathlib; draws as parameters; events by induction over the particles | partial (6 theorems) |
| C268 | Python redundancy wrapper | PythonDefense | wrapper over the model of SimpleTMR, Python exceptions as outcomes, floats as reals with any rounding or as ideal doubles, modules as arbitrary functions; histories by induction | partial (5 theorems) |
| C269 | Python protected values and arrays | PythonDefense | wrapper over the model of SimpleTMR, Python exceptions as outcomes, floats as reals with any rounding or as ideal doubles, modules as arbitrary functions; histories by induction | partial (8 theorems) |
| C270 | Python hardened modules | PythonDefense | wrapper over the model of SimpleTMR, Python exceptions as outcomes, floats as reals with any rounding or as ideal doubles, modules as arbitrary functions; histories by induction | partial (5 theorems) |
| C271 | Python defense configurations | PythonDefense | wrapper over the model of SimpleTMR, Python exceptions as outcomes, floats as reals with any rounding or as ideal doubles, modules as arbitrary functions; histories by induction | partial (4 theorems) |
| C272 | RS(255,223) of the test tools | TestRs | words as lists of bytes; the loops by induction, the field facts over all bytes | partial (6 theorems) |
| C273 | Python GF(256) | PyCodec | bytes as naturals, the quotient ring of Mathlib as specification; division by induction, detection by the Vandermonde determinant, the locator by an invariant | proved (1 theorems) |
| C274 | Python RS codec | PyCodec | bytes as naturals, the quotient ring of Mathlib as specification; division by induction, detection by the Vandermonde determinant, the locator by an invariant | partial (3 theorems) |
| C275 | Python Hamming protection | PyMethods | binary32 patterns, lists of bits of every length; syndrome as exclusive or of positions, exceptions as none | proved (3 theorems) |
| C276 | Python SEC-DED protection | PyMethods | binary32 patterns, lists of bits of every length; syndrome as exclusive or of positions, exceptions as none | partial (3 theorems) |
| C277 | Python TMR and unprotected values | PyMethods | binary32 patterns, lists of bits of every length; syndrome as exclusive or of positions, exceptions as none | proved (3 theorems) |
| C278 | Python Reed–Solomon, hybrids and overheads | PyMethods | binary32 patterns, lists of bits of every length; syndrome as exclusive or of positions, exceptions as none | partial (6 theorems) |
| C279 | GF(256) of the improved test program | RsTests | bytes as naturals or words; the quotient ring as specification, loops by induction | partial (2 theorems) |
| C280 | Checksum code of the improved test program | RsTests | bytes as naturals or words; the quotient ring as specification, loops by induction | partial (4 theorems) |
| C281 | Minimal test codes | RsTests | bytes as naturals or words; the quotient ring as specification, loops by induction | partial (2 theorems) |
| C282 | Material database | Materials | doubles as reals; monotonicity of the exponential, look-up by cases on names | partial (4 theorems) |
| C283 | Mission environment predicates | Materials | doubles as reals; monotonicity of the exponential, look-up by cases on names | proved (1 theorems) |
| C284 | High-level memory and error functions | Facade | histories of calls over the memory and error models; invariant by induction on the history | partial (7 theorems) |
| C285 | Monte Carlo channel | MonteCarlo | draws as a stream of reals, lists of every length; loops by induction, detection from the codec theorem | proved (2 theorems) |
| C286 | Monte Carlo experiment | MonteCarlo | draws as a stream of reals, lists of every length; loops by induction, detection from the codec theorem | partial (6 theorems) |
| C287 | Error rate of the visualizer | Visualizer | the protection object of the basic TMR model, draws as functions; loop invariants by induction | proved (3 theorems) |
| C288 | Report of the visualizer | Visualizer | the protection object of the basic TMR model, draws as functions; loop invariants by induction | partial (5 theorems) |
| C289 | Impact and accuracy of the industry suite | Industry | ideal doubles with NaN, draws as reals; monotonicity of logarithm, exponential and root, tables by kernel evaluation | proved (4 theorems) |
| C290 | Verdict of the industry suite | Industry | ideal doubles with NaN, draws as reals; monotonicity of logarithm, exponential and root, tables by kernel evaluation | partial (7 theorems) |
| C291 | Analysis of the mission validation | MissionValidation | ideal doubles, draws as functions of sample and layer, maps as association lists; folds by induction | proved (7 theorems) |
| C292 | Verdict of the mission validation | MissionValidation | ideal doubles, draws as functions of sample and layer, maps as association lists; folds by induction | partial (10 theorems) |
| C293 | Result of the enhancement comparison for one environment | EnhancementComparison | exact rationals; case analysis on the switches, folds by induction | proved (8 theorems) |
| C294 | Summary of the enhancement comparison | EnhancementComparison | exact rationals; case analysis on the switches, folds by induction | proved (9 theorems) |
| C295 | Loop and counters of the stress test | StressTest | 64-bit counters, clock readings and memory contents as oracles; invariants of the loop by induction; composed with the models of EnhancedTMR, MemoryScrubber and AdaptiveProtection | partial (12 theorems) |
| C296 | Results of the stress test | StressTest | 64-bit counters, clock readings and memory contents as oracles; invariants of the loop by induction; composed with the models of EnhancedTMR, MemoryScrubber and AdaptiveProtection | partial (8 theorems) |
| C297 | Checks of the verification program | StressTest | 64-bit counters, clock readings and memory contents as oracles; invariants of the loop by induction; composed with the models of EnhancedTMR, MemoryScrubber and AdaptiveProtection | partial (6 theorems) |
| C298 | Vote of the radiation stress test | RadStress | floats as bit patterns, arithmetic as parameters, draws as arguments; bit-level lemmas for the vote, induction over passes and tests | partial (4 theorems) |
| C299 | Counters of the radiation stress test | RadStress | floats as bit patterns, arithmetic as parameters, draws as arguments; bit-level lemmas for the vote, induction over passes and tests | partial (3 theorems) |
| C300 | Tests of the radiation stress test | RadStress | floats as bit patterns, arithmetic as parameters, draws as arguments; bit-level lemmas for the vote, induction over passes and tests | partial (4 theorems) |
| C301 | Trials of the method comparison | EnhancedMonteCarlo | draws as arguments, reals for numpy floats; induction over trials and methods, permutation of the sorted rows, numeric bounds on the log-spaced rates | partial (4 theorems) |
| C302 | Table of the method comparison | EnhancedMonteCarlo | draws as arguments, reals for numpy floats; induction over trials and methods, permutation of the sorted rows, numeric bounds on the log-spaced rates | partial (4 theorems) |
| C303 | Recommendations of the method comparison | EnhancedMonteCarlo | draws as arguments, reals for numpy floats; induction over trials and methods, permutation of the sorted rows, numeric bounds on the log-spaced rates | partial (3 theorems) |
| C304 | Vote of the mission simulation network | MissionSimTest | numbers exact, outputs of the networks as arguments; case analysis of the votes, invariants over histories, whole-domain checks of the tables | partial (6 theorems) |
| C305 | Reliabilities of the mission simulation network | MissionSimTest | numbers exact, outputs of the networks as arguments; case analysis of the votes, invariants over histories, whole-domain checks of the tables | partial (3 theorems) |
| C306 | Answers of the mission simulation network | MissionSimTest | numbers exact, outputs of the networks as arguments; case analysis of the votes, invariants over histories, whole-domain checks of the tables | partial (5 theorems) |
| C307 | Mission data of the mission simulation | MissionSimTest | numbers exact, outputs of the networks as arguments; case analysis of the votes, invariants over histories, whole-domain checks of the tables | partial (5 theorems) |
| C308 | Summary of the mission simulation | MissionSimTest | numbers exact, outputs of the networks as arguments; case analysis of the votes, invariants over histories, whole-domain checks of the tables | partial (6 theorems) |
| C309 | Protected values of the simplified Monte Carlo test | SimpleMonteCarlo | Python floats as ideal doubles, flips as arbitrary functions, the seeded generator as a stream; induction over parameters and exposures | partial (7 theorems) |
| C310 | Radiation on a network of the simplified Monte Carlo test | SimpleMonteCarlo | Python floats as ideal doubles, flips as arbitrary functions, the seeded generator as a stream; induction over parameters and exposures | partial (7 theorems) |
| C311 | Results of the simplified Monte Carlo test | SimpleMonteCarlo | Python floats as ideal doubles, flips as arbitrary functions, the seeded generator as a stream; induction over parameters and exposures | partial (10 theorems) |
| C312 | Protected value of the voting demonstrations | TmrDemo | Python values as integers, binary32 patterns or other numbers; digits as a list of bits, proved against exclusive or; induction over the tests | proved (6 theorems) |
| C313 | Bit flip of the voting demonstrations | TmrDemo | Python values as integers, binary32 patterns or other numbers; digits as a list of bits, proved against exclusive or; induction over the tests | partial (7 theorems) |
| C314 | Runs of the voting demonstrations | TmrDemo | Python values as integers, binary32 patterns or other numbers; digits as a list of bits, proved against exclusive or; induction over the tests | proved (4 theorems) |
| C315 | Phases sampled by the space mission test | NeuralMission | doubles as reals, draws as arguments, maps as ordered lists; induction over the loop, the inferences and the entries | partial (6 theorems) |
| C316 | Error detection of the space mission test | NeuralMission | doubles as reals, draws as arguments, maps as ordered lists; induction over the loop, the inferences and the entries | partial (4 theorems) |
| C317 | Counts and summary of the space mission test | NeuralMission | doubles as reals, draws as arguments, maps as ordered lists; induction over the loop, the inferences and the entries | partial (6 theorems) |
| C318 | Faults injected by the validation of the space TMR | SpaceValidation | values as object representations, checksum and fallback as parameters; loop invariants, whole-domain tables over 64 residues, induction over the trials; injectivity of the checksum on 4 bytes | partial (6 theorems) |
| C319 | One trial of the validation of the space TMR | SpaceValidation | values as object representations, checksum and fallback as parameters; loop invariants, whole-domain tables over 64 residues, induction over the trials; injectivity of the checksum on 4 bytes | proved (6 theorems) |
| C320 | Counters and report of the validation of the space TMR | SpaceValidation | values as object representations, checksum and fallback as parameters; loop invariants, whole-domain tables over 64 residues, induction over the trials; injectivity of the checksum on 4 bytes | partial (10 theorems) |
| C321 | Parameters affected by the systematic fault test | SystematicFault | network of RadStress, draws and fault functions as arguments; division arithmetic, invariant over the rounds, lists without duplicates | partial (3 theorems) |
| C322 | Protection in the systematic fault test | SystematicFault | network of RadStress, draws and fault functions as arguments; division arithmetic, invariant over the rounds, lists without duplicates | partial (3 theorems) |
| C323 | Counters of the systematic fault test | SystematicFault | network of RadStress, draws and fault functions as arguments; division arithmetic, invariant over the rounds, lists without duplicates | partial (6 theorems) |
| C324 | Dose table of the realistic space validation | RealisticSpace | sorted association list, real arithmetic, 64-bit generator; induction over the table, bitwise invariant of the loop, kernel evaluation of all 38400 draws of the fixed seeds, trigonometric identities, contraction for Kepler | proved (8 theorems) |
| C325 | Upset probability of the realistic space validation | RealisticSpace | sorted association list, real arithmetic, 64-bit generator; induction over the table, bitwise invariant of the loop, kernel evaluation of all 38400 draws of the fixed seeds, trigonometric identities, contraction for Kepler | partial (6 theorems) |
| C326 | Bit errors of the realistic space validation | RealisticSpace | sorted association list, real arithmetic, 64-bit generator; induction over the table, bitwise invariant of the loop, kernel evaluation of all 38400 draws of the fixed seeds, trigonometric identities, contraction for Kepler | partial (6 theorems) |
| C327 | Voting in the realistic space validation | RealisticSpace | sorted association list, real arithmetic, 64-bit generator; induction over the table, bitwise invariant of the loop, kernel evaluation of all 38400 draws of the fixed seeds, trigonometric identities, contraction for Kepler | proved (8 theorems) |
| C328 | Orbit of the realistic space validation | RealisticSpace | sorted association list, real arithmetic, 64-bit generator; induction over the table, bitwise invariant of the loop, kernel evaluation of all 38400 draws of the fixed seeds, trigonometric identities, contraction for Kepler | partial (11 theorems) |
| C329 | Conclusion of the realistic space validation | RealisticSpace | sorted association list, real arithmetic, 64-bit generator; induction over the table, bitwise invariant of the loop, kernel evaluation of all 38400 draws of the fixed seeds, trigonometric identities, contraction for Kepler | partial (3 theorems) |
| C330 | Map and table of the realistic space validation | RealisticSpace | sorted association list, real arithmetic, 64-bit generator; induction over the table, bitwise invariant of the loop, kernel evaluation of all 38400 draws of the fixed seeds, trigonometric identities, contraction for Kepler | partial (8 theorems) |
| C331 | Fluxes of the LEO mission test | LeoMission | real arithmetic on top of the model of quantum corrections, loop over 36 steps; induction over the steps for the sums, bounds of logarithm, exponential and power for the damage | proved (1 theorems) |
| C332 | Fluence of the LEO mission test | LeoMission | real arithmetic on top of the model of quantum corrections, loop over 36 steps; induction over the steps for the sums, bounds of logarithm, exponential and power for the damage | partial (2 theorems) |
| C333 | Energy loss factor of the LEO mission test | LeoMission | real arithmetic on top of the model of quantum corrections, loop over 36 steps; induction over the steps for the sums, bounds of logarithm, exponential and power for the damage | partial (3 theorems) |
| C334 | Displacements per atom of the LEO mission test | LeoMission | real arithmetic on top of the model of quantum corrections, loop over 36 steps; induction over the steps for the sums, bounds of logarithm, exponential and power for the damage | proved (1 theorems) |
| C335 | Damage check of the LEO mission test | LeoMission | real arithmetic on top of the model of quantum corrections, loop over 36 steps; induction over the steps for the sums, bounds of logarithm, exponential and power for the damage | partial (1 theorems) |
| C336 | Defects of the LEO mission test | LeoMission | real arithmetic on top of the model of quantum corrections, loop over 36 steps; induction over the steps for the sums, bounds of logarithm, exponential and power for the damage | partial (5 theorems) |
| C337 | Totals of the LEO mission test | LeoMission | real arithmetic on top of the model of quantum corrections, loop over 36 steps; induction over the steps for the sums, bounds of logarithm, exponential and power for the damage | partial (3 theorems) |
| C338 | Votes of the extreme stress test | ExtremeStress | 32-bit vectors, voters as records of operations, loop over an arbitrary list of events with the draws as arguments; induction over the events, case analysis over the copies hit | proved (4 theorems) |
| C339 | Health scores of the extreme stress test | ExtremeStress | 32-bit vectors, voters as records of operations, loop over an arbitrary list of events with the draws as arguments; induction over the events, case analysis over the copies hit | proved (3 theorems) |
| C340 | Approximate copies of the extreme stress test | ExtremeStress | 32-bit vectors, voters as records of operations, loop over an arbitrary list of events with the draws as arguments; induction over the events, case analysis over the copies hit | partial (5 theorems) |
| C341 | Radiation events of the extreme stress test | ExtremeStress | 32-bit vectors, voters as records of operations, loop over an arbitrary list of events with the draws as arguments; induction over the events, case analysis over the copies hit | partial (6 theorems) |
| C342 | Environments of the extreme stress test | ExtremeStress | 32-bit vectors, voters as records of operations, loop over an arbitrary list of events with the draws as arguments; induction over the events, case analysis over the copies hit | proved (4 theorems) |
| C343 | Accounting of the extreme stress test | ExtremeStress | 32-bit vectors, voters as records of operations, loop over an arbitrary list of events with the draws as arguments; induction over the events, case analysis over the copies hit | partial (3 theorems) |
| C344 | Repair in the extreme stress test | ExtremeStress | 32-bit vectors, voters as records of operations, loop over an arbitrary list of events with the draws as arguments; induction over the events, case analysis over the copies hit | partial (3 theorems) |
| C345 | Survival in the extreme stress test | ExtremeStress | 32-bit vectors, voters as records of operations, loop over an arbitrary list of events with the draws as arguments; induction over the events, case analysis over the copies hit | partial (2 theorems) |
| C346 | Conclusion of the extreme stress test | ExtremeStress | 32-bit vectors, voters as records of operations, loop over an arbitrary list of events with the draws as arguments; induction over the events, case analysis over the copies hit | proved (2 theorems) |
| C347 | Voter checks of the framework validation | MissionCritical (FrameworkVal) | model of the framework voter and protection object with draws as arguments; case analysis, induction over the operations | partial (2 theorems) |
| C348 | Levels in the framework validation | MissionCritical (FrameworkVal) | model of the framework voter and protection object with draws as arguments; case analysis, induction over the operations | partial (1 theorems) |
| C349 | Error injection in the framework validation | MissionCritical (FrameworkVal) | model of the framework voter and protection object with draws as arguments; case analysis, induction over the operations | partial (3 theorems) |
| C350 | Protected execution in the mission-critical test | MissionCritical (MissionCrit) | network over the reals, protection object with the stream of its draws, one minute of the mission as a partial function; an invariant over the minutes and a pure training function as specification | partial (3 theorems) |
| C351 | Training in the mission-critical test | MissionCritical (MissionCrit) | network over the reals, protection object with the stream of its draws, one minute of the mission as a partial function; an invariant over the minutes and a pure training function as specification | proved (7 theorems) |
| C352 | Samples of the mission-critical test | MissionCritical (MissionCrit) | network over the reals, protection object with the stream of its draws, one minute of the mission as a partial function; an invariant over the minutes and a pure training function as specification | partial (2 theorems) |
| C353 | Environments of the mission-critical test | MissionCritical (MissionCrit) | network over the reals, protection object with the stream of its draws, one minute of the mission as a partial function; an invariant over the minutes and a pure training function as specification | partial (4 theorems) |
| C354 | Logs of the mission-critical test | MissionCritical (MissionCrit) | network over the reals, protection object with the stream of its draws, one minute of the mission as a partial function; an invariant over the minutes and a pure training function as specification | partial (2 theorems) |
| C355 | Measurements of the mission-critical test | MissionCritical (MissionCrit) | network over the reals, protection object with the stream of its draws, one minute of the mission as a partial function; an invariant over the minutes and a pure training function as specification | partial (4 theorems) |
| C356 | Unit tests of voter and scrubber | UnitTests | models of the classes under test; case analysis, induction over the trials, evaluation of the loop nest with symbolic pixels | proved (2 theorems) |
| C357 | Unit test of the bit flip | UnitTests | models of the classes under test; case analysis, induction over the trials, evaluation of the loop nest with symbolic pixels | proved (2 theorems) |
| C358 | Unit test of resilience | UnitTests | models of the classes under test; case analysis, induction over the trials, evaluation of the loop nest with symbolic pixels | partial (3 theorems) |
| C359 | Unit tests of the convolution | UnitTests | models of the classes under test; case analysis, induction over the trials, evaluation of the loop nest with symbolic pixels | partial (4 theorems) |
| C360 | Unit test of the convolution's resilience | UnitTests | models of the classes under test; case analysis, induction over the trials, evaluation of the loop nest with symbolic pixels | proved (2 theorems) |
| C361 | Temperature factor of materials | MaterialPhysics | formulas over the reals, table of materials; inequalities between exponentials and linear arithmetic | proved (1 theorems) |
| C362 | Mechanical load factor of materials | MaterialPhysics | formulas over the reals, table of materials; inequalities between exponentials and linear arithmetic | partial (3 theorems) |
| C363 | Combined damage of materials | MaterialPhysics | formulas over the reals, table of materials; inequalities between exponentials and linear arithmetic | partial (3 theorems) |
| C364 | Choice of the material | MaterialPhysics | formulas over the reals, table of materials; inequalities between exponentials and linear arithmetic | proved (5 theorems) |
| C365 | Bit flips of the IEEE-754 test | Ieee754Test | model of the voter (Verif.STmr) on bit patterns of any binary format; case analysis on keys, bit lemmas for magnitudes, reuse of C15 | proved (2 theorems) |
| C366 | Voter under the IEEE-754 test | Ieee754Test | model of the voter (Verif.STmr) on bit patterns of any binary format; case analysis on keys, bit lemmas for magnitudes, reuse of C15 | proved (1 theorems) |
| C367 | Verdicts of the IEEE-754 test | Ieee754Test | model of the voter (Verif.STmr) on bit patterns of any binary format; case analysis on keys, bit lemmas for magnitudes, reuse of C15 | proved (2 theorems) |
| C368 | Flipped doubles | Ieee754Test | model of the voter (Verif.STmr) on bit patterns of any binary format; case analysis on keys, bit lemmas for magnitudes, reuse of C15 | proved (2 theorems) |
| C369 | Non-finite values and the summary of the IEEE-754 test | Ieee754Test | model of the voter (Verif.STmr) on bit patterns of any binary format; case analysis on keys, bit lemmas for magnitudes, reuse of C15 | partial (5 theorems) |
| C370 | Mission simulator example: protection | MissionDemo | network of mutex-protected voters (Verif.MTmr) with the mission simulator (Verif.MissionSim); invariant over reads and adaptations; induction over environments; the step relation of the mission | proved (3 theorems) |
| C371 | Mission simulator example: adaptation | MissionDemo | network of mutex-protected voters (Verif.MTmr) with the mission simulator (Verif.MissionSim); invariant over reads and adaptations; induction over environments; the step relation of the mission | proved (2 theorems) |
| C372 | Mission simulator example: boost | MissionDemo | network of mutex-protected voters (Verif.MTmr) with the mission simulator (Verif.MissionSim); invariant over reads and adaptations; induction over environments; the step relation of the mission | proved (2 theorems) |
| C373 | Accuracy test: vote | ModelAccuracy | median of a sorted list of ideal floats; counting argument over upward-closed sets; bit lemmas for the injection | proved (2 theorems) |
| C374 | Accuracy test: parameters and injection | ModelAccuracy | median of a sorted list of ideal floats; counting argument over upward-closed sets; bit lemmas for the injection | proved (5 theorems) |
| C375 | Accuracy test: improvements | ModelAccuracy | median of a sorted list of ideal floats; counting argument over upward-closed sets; bit lemmas for the injection | partial (1 theorems) |
| C376 | Simple accuracy test | ModelAccuracy | median of a sorted list of ideal floats; counting argument over upward-closed sets; bit lemmas for the injection | proved (6 theorems) |
| C377 | Framework verification test: verdict | FrameworkVerif | plain triple (Verif.Tmr) and mutex-protected triple (Verif.MTmr) in one network; invariant over all reads; induction over the passes | proved (2 theorems) |
| C378 | Framework verification test: statistics | FrameworkVerif | plain triple (Verif.Tmr) and mutex-protected triple (Verif.MTmr) in one network; invariant over all reads; induction over the passes | proved (4 theorems) |
| C379 | Voting test: damage injected | EnhancedTmrTest | the voters of Verif.Voting with injections as bit lemmas; theorems C01-C03 reused; undefined shifts of the classification by evaluation of its masks only | proved (3 theorems) |
| C380 | Voting test: assertions, 32 bits | EnhancedTmrTest | the voters of Verif.Voting with injections as bit lemmas; theorems C01-C03 reused; undefined shifts of the classification by evaluation of its masks only | proved (3 theorems) |
| C381 | Voting test: assertions, 64 bits | EnhancedTmrTest | the voters of Verif.Voting with injections as bit lemmas; theorems C01-C03 reused; undefined shifts of the classification by evaluation of its masks only | partial (2 theorems) |
| C382 | Voting test: statistics | EnhancedTmrTest | the voters of Verif.Voting with injections as bit lemmas; theorems C01-C03 reused; undefined shifts of the classification by evaluation of its masks only | proved (1 theorems) |
| C383 | Voter demonstration: health-weighted voter | VoterDemos | the voter models of Verif.Extreme applied to the hit lists of the demonstrations; floats as reals | partial (3 theorems) |
| C384 | Voter demonstration: random trials of the approximate voter | VoterDemos | the voter models of Verif.Extreme applied to the hit lists of the demonstrations; floats as reals | proved (1 theorems) |
| C385 | Voter demonstration: approximate voter of floats | VoterDemos | the voter models of Verif.Extreme applied to the hit lists of the demonstrations; floats as reals | partial (3 theorems) |
| C386 | Network validation: data set | NetValidation | the network as an arbitrary forward pass and radiation effect over an arbitrary state; induction over the trajectory; bounds of pi and roots for the orbit periods | proved (3 theorems) |
| C387 | Network validation: accuracy and effectiveness | NetValidation | the network as an arbitrary forward pass and radiation effect over an arbitrary state; induction over the trajectory; bounds of pi and roots for the orbit periods | proved (4 theorems) |
| C388 | Network validation: walk through the orbit | NetValidation | the network as an arbitrary forward pass and radiation effect over an arbitrary state; induction over the trajectory; bounds of pi and roots for the orbit periods | proved (5 theorems) |
| C389 | Network validation: every mission is tested | NetValidation | the network as an arbitrary forward pass and radiation effect over an arbitrary state; induction over the trajectory; bounds of pi and roots for the orbit periods | partial (3 theorems) |
| C390 | Reed-Solomon demonstrations: errors injected, counted, printed | RsDemos | bits by testBit; induction over lists and trials; the constructor results of C22 and C25 | proved (3 theorems) |
| C391 | Reed-Solomon demonstrations: trials | RsDemos | bits by testBit; induction over lists and trials; the constructor results of C22 and C25 | partial (4 theorems) |
| C392 | Fixed-point example: activation and prediction | SimpleNN | fixed point of Verif.Fixed and voters of Verif.CoreTmr; the selection by masks of 32 bits | partial (3 theorems) |
| C393 | Fixed-point example: upsets of the weights | SimpleNN | fixed point of Verif.Fixed and voters of Verif.CoreTmr; the selection by masks of 32 bits | proved (3 theorems) |

`partial` means that the property as a user would state it is false of the code in some situation, proved by a `_violated` theorem, or
that a part is proved only under a stated restriction; the note in MANIFEST.json says which.

## Trusted base
* Lean 4.33.0's kernel. No axiom is added, nothing is left unproved, and no compiled evaluation is used; `decide +kernel` is
  evaluation by the kernel itself and is used only on finite whole domains or on concrete witnesses.
* Axioms: every theorem depends on a subset of `propext`, `Classical.choice`, `Quot.sound`. The subset of each theorem
  listed in MANIFEST.json is in `AXIOMS.md` (produced with `#print axioms`).
* The hand translation from C++ to the model, checked by reading against the cited lines, and the conventions above.
* Mathlib only through kernel-checked theorems.

## Parts of the code modelled
(paths under `include/rad_ml/` unless they begin with `src/` or `rad_ml/`)
| Source | Modelled | Not modelled |
|--------|----------|--------------|
| core/redundancy/enhanced_voting.hpp | all strategies, pattern detection, confidence, batch | SIMD alternatives (same results by contract) |
| core/redundancy/enhanced_tmr.hpp | class `EnhancedTMR`, `CRC` | logging |
| core/redundancy/space_enhanced_tmr.hpp | `SpaceEnhancedTMR`, `SpaceCRC`, float vote | array variant's printing |
| core/memory/* | fixed containers, static allocator, aligned/interleaved memory, protected value, both scrubbers' CRC and registry, unified memory manager | background threads' timing; `std::hash` |
| core/adaptive, core/radiation, core/recovery, core/runtime, core/error | state machines | log output |
| error/error_handling.hpp | `Result`, `ErrorInfo` classification, `ErrorHandler` | string formatting |
| memory/* | `MemoryScrubber`, `RadiationMappedAllocator` | scrubbing thread's schedule |
| math/*, utils/bit_manipulation.hpp | all functions | — |
| neural/galois_field.hpp, advanced_reed_solomon.hpp | tables, polynomials, encoder, decoder, interleaver | — |
| neural/multibit_protection.hpp | all ECC schemes for 4-byte values, checksum protection ; applyMultiBitErrors and the TMR-based subclasses (lines 885-1095) | `hasError`/`correctErrors` of the TMR-based weights that call functions which do not exist (not instantiable) |
| neural/protected_neural_network.hpp | all members | file I/O |
| testing/* , radiation/seu_simulator.hpp, src/testing/* | injectors, simulator, protection techniques | particle statistics |
| tmr/* | tmr, approximate, health-weighted, stuck-bit (integers and floats), hybrid, temporal, enhanced_tmr, adaptive strategies and controller, physics-driven system | — |
| rad_ml/tmr/* | BasicTMR, EnhancedTMR, PhysicsDrivenProtection | — |
| inference/layers/conv_layer.hpp, inference/model.hpp, core/redundancy/tmr.hpp | forward pass, parameters, automatic scrubbing | serialisation |
| core/memory/memory_scrubber.hpp | thread as a transition system | wall-clock intervals |
| power/power_aware_protection.hpp | whole class | floating-point rounding, report strings |
| advanced/algorithmic_diversity.hpp, advanced/error_prediction.hpp, core/logger.hpp | whole classes | time stamps, colours |
| hw/hardware_acceleration.hpp | voting, reliability, configuration | device access (absent in the code) |
| neural/error_predictor.hpp | both classes | rounding, overflow |
| research/residual_network.hpp | connections, files, loss | contents of MultibitProtection of a connection (never read) |
| neural/radiation_environment.hpp | all used members | rounding; the solar particle model (created, never used) |
| research/architecture_tester.hpp and .cpp | all members that do something | rounding; mt19937 itself; console output; placeholders |
| research/auto_arch_search.hpp and .cpp | options, comparison, the three searches, crossover, mutation | random engine as a stream of reals; order of map entries; result files; console output |
| research/radiation_aware_training.hpp and .cpp | training loop, injection, criticality map, statistics, result file | floats of data and accuracy as reals; engine as a stream; logging; timing; baseline accuracy |
| radiation/environment.hpp, radiation/space_mission.hpp | environments, missions, all standard missions | floats as reals; comparison of two null environments in max_element as a plain left-to-right scan |
| research/variational_autoencoder.hpp/.cpp | whole class for float: encode, sample, decode, forward, interpolate, generate, train, trainProduction, evaluation, losses, gradients, protection, statistics, copies, files | floats as reals with 'not a number' only for divisions by a count 0; the three networks by the laws of structure Lawful (proved of the concrete network in C85-C89); optimizer moments and logging left out; trainBatched, saveCheckpoint and loadCheckpoint are defined nowhere |
| testing/radiation_simulator.hpp, testing/mission_simulator.hpp | both classes with profiles, configurations and statistics | doubles as reals; counters and milliseconds unbounded; random engines as streams; texts (descriptions, getReport) left out; src/testing/radiation_simulator.cpp is a different class, see C263 ff. |
| physics/quantum_field_theory.hpp/.cpp, physics/quantum_models.hpp/.cpp (fields) | QuantumField, the three equations, createParticleField, simulateMultiParticleInteraction | double and complex as real and complex numbers; random engine as a stream; calculateKineticTerm and calculatePotentialTerm return an uninitialised matrix and are left out; fields passed twice in one call (aliasing) are left out |
| physics/quantum_field_theory.cpp:519-706, physics/quantum_models.cpp (scalar functions), physics/quantum_enhanced_radiation.hpp/.cpp | tunnelling, zero-point energy, corrections, cascades, displacement, decoherence, transitions, QuantumEnhancedRadiation | double as real numbers; random engine as a stream of numbers in [0, 1), used for each distribution; uniform_int_distribution<uint8_t> taken as uniform on 0..7 although the standard does not define it; the flip counter is not bounded; the private calculateDefectFormationEnergy is never called and left out; log output left out |
| src/validation/nasa_esa_validation_protocol.hpp/.cpp | runComprehensiveVerification with all it calls, calculateMetrics | double as ideal double (real, infinite, NaN), no rounding; simulator results and random draws as arguments; texts, export functions and the functions never called (.cpp:343-545) left out |
| sim/physics_radiation_simulator.hpp, src/rad_ml/sim/environment.cpp | PhysicsRadiationSimulator and environment tables | double as real numbers, counters unbounded; Poisson numbers and raw uniform numbers as streams; report texts left out |
| python/rad_ml_minimal.cpp | SimpleTMR (copies, vote, correct, check), factories (C268) | the pybind11 wrapping, random corruption helpers |
| mission/mission_profile.hpp, neural/activation.hpp | all profiles, configuration, simulation environment, activations | texts; doubles as reals or ideal doubles |
| neural/selective_hardening.hpp (does not compile; modelled as its text defines it) | scores, ranking, fixed threshold, budget, layerwise, adaptive update, estimates | applyProtection (ill-typed), four strategies declared nowhere, texts |
| neural/sensitivity_analysis.hpp (includes a header that does not compile; modelled as its text defines it) | topology, importance, space effects, recommended levels | float rounding of the flux; extraction of layers from a network type; the fallback for networks without parameters |
| neural/layer_protection_policy.hpp (includes a header that does not compile; modelled as its text defines it) | registry, missions, analysis, decay, configuration | doubles as reals; policies shared by pointer and changed after removal |
| neural/fine_tuning.hpp, neural/fine_tuning_integration.hpp (name types that do not exist; modelled as their text defines them) | all classes | the Reed-Solomon codecs of the selector (ill-typed calls) are parameters; five of the six tests of FineTuningValidation are defined nowhere; report texts |
| src/physics/quantum_integration.cpp and its header (in no build target, redefine functions of quantum_field_theory.hpp; modelled as their text) | decision, three terms, correction of defects, both enhancement factors | rounding of double |
| api/custom_defense_api.hpp/.cpp (in no build target, name types that do not exist; modelled as their text) | all classes | demonstrateCustomAPI (prints) |
| src/validation/* (tools in no target of the top-level build, some name members that do not exist; modelled as their text) | cross_section_utils, radiation_accuracy_validator, report data, radiation_validation_test options, seu_benchmark arithmetic, nasa_esa_standard_test | layout of HTML/Markdown/CSV texts, injection of faults by the benchmark |
| neural/adaptive_protection.hpp (does not compile as committed; modelled as its text) | AdaptiveProtection: levels, protect, recover, exposure, statistics, critical weights, budget | its random engines (parameters), neural network class (an interface) |
| testing/benchmark_framework.hpp, src/nasa_esa_standard_runner.cpp (the header does not compile as committed; modelled as its text) | runBenchmark, runBenchmarkSuite, getSummary, exportToCSV, patterned data; CSV rows and main of the runner | the radiation simulator, time and hardening (parameters), layout of the text and HTML |
| src/testing/radiation_simulator.cpp (in no build target, does not compile as committed; modelled as its text) | flux, LET (empirical and Bethe–Bloch), error model, simulateEffects, updateEnvironment | rounding of doubles, random engines (draws are parameters), descriptions |
| rad_ml/tmr.py and its copies, python/rad_ml/unified_defense.py | StandardTMR/EnhancedTMR wrappers; values, arrays, modules, configurations | pybind11 holders, numpy dtypes other than float, torch internals (a module is a function of weights and input), hooks on gradients |
| protection_methods.py, rs_monte_carlo.py (codec part) | all protection methods, the factory, GF256 and RS8Bit8Sym | rounding of doubles to binary32 when packing, signalling NaNs, `_calculate_error_values` (never reached, any function in the model), plots and sampling |
| rs_improved_test.cpp, rs_minimal_test.cpp, gf_minimal_test.cpp | field, codes | printing |
| rad_ml/core/material_database.hpp, rad_ml/sim/mission_environment.hpp | all functions and the table | rounding; order of the map |
| api/rad_ml.hpp (does not compile as committed; modelled as its text) | initialize, shutdown, memory and error functions | factories (constructors only), helpers that call members that do not exist |
| rs_monte_carlo.py (experiment) | channel, counters, trials, intervals, threshold | plots, argument parsing, rounding of Python floats |
| tools/protection_visualizer.cpp | environments, error rate, run, rows, totals | printing, files |
| src/industry_standard_test.cpp | tables, impact, test, summary, rating, suitability | printing, files, argument parsing, order of rows |
| src/space_mission_validation_test.cpp | analyzer, test of a phase, choice of phases, run, assessment | printing, files, argument parsing |
| src/enhancement_comparison.cpp, src/enhanced_vs_baseline_test.cpp | testFramework, comparison, averages, suitability, built-in environments | printing, measured time, NaN for an empty list |
| stress_test.cpp, verify_framework.cpp | loop, reports, counters, rates, verdict, file, duration; adaptive, environment and integrated checks | printing, file system, the simulator inside (modelled elsewhere), the checks of TMR, profile and mission simulator |
| test/verification/radiation_stress_test.cpp | flips, strikes, vote, forward pass, counters, tests and their sequence | mean squared error, CSV, script, distribution of the draws, `bitset` aliasing |
| enhanced_monte_carlo.py | trials, success rates and intervals, thresholds, table, recommendations | plots, CSV, wording, rounding of the numpy arithmetic |
| src/test/mission_simulation_test.cpp | the three votes, reliabilities, checkpoints, cache, mission data and environments, estimates, summary | the networks' own arithmetic, softmax, report texts, solar activity, physics simulator |
| simplified_monte_carlo_test.py | the protected values, radiation on a network, a run over the rates, its rows and summary | forward pass arithmetic, plots, CSV files, the simulator's unused profiles |
| advanced_tmr_demo.py, validate_tmr.py | the protected value, the bit flip, the tests and their counters | printed text, negative integers, the type check of the setter |
| src/test/space_mission_neural_test.cpp | phases sampled, mock network, errors counted, summary, profile of a target | printed text; the framework's analyses (modelled elsewhere) |
| test/verification/space_monte_carlo_validation.cpp | error patterns, fault injection, trials, counters, rates, printed percentage | printed layout; time measurement (argument) |
| test/verification/systematic_fault_test.cpp | addressing, selection and injection of faults, vote and forward pass, counters, correction rate | written files, plotting script; error measure (squared differences) |
| test/verification/realistic_space_validation.cpp | dose table, probability, bit errors, voter, trials, orbit (radius, latitude), map cells and region statistics | longitude (a free argument), date strings, rounding of doubles, printed layout |
| test/verification/realistic_leo_mission_test.cpp | fluxes, energy loss, displacements, cascades, corrections, the mission loop, totals, validation | quantum fields (energies only printed), energies 0 and infinity, measured time, printed layout, CSV |
| examples/enhanced_features_test/extreme_stress_test.cpp | three voters for `int`, tables of environments, application of events, the test loop, rates, conclusion | number, times and order of the events, other element types, texts, pauses |
| test/framework_validation_test.cpp | the three tests and the exit code | texts |
| test/mission_critical_validation.cpp | protection stand-in, network, gradients, updates, accuracy, mission loop, rows of results, processed samples of the file | rounding, generation of data and spikes, texts, averages of the file |
| test/unit | assertions of the four unit tests | assertion macros, texts |
| tests/material_physics_integration_test.cpp | temperature, synergy, load and damage formulas, materials, environments, choice of material | tests calling functions that are not defined anywhere |
| test/verification/ieee754_tmr_test.cpp | all functions | rounding of the tolerance (a relation), texts |
| examples/mission_simulator | network, set-up, callback, boost, run | texts, locking (C71), rounding |
| test/model_accuracy_test.cpp, test/simple_model_accuracy_test.cpp | all functions | rounding, texts, files |
| test/verification/framework_verification_test.cpp | all functions | texts, rounding |
| test/verification/enhanced_tmr_test.cpp | all functions | texts |
| examples/enhanced_features_test/simple_test.cpp, approx_tmr_test.cpp | voters, demonstrations, random trials | texts, rounding of float, element types other than int and float |
| test/verification/neural_network_validation.cpp | data set, accuracy, test per mission, plan of main | texts, times, error counters, testMultiBitUpsets, picture (needs OpenCV) |
| rs_test.cpp, rs_simple_test.cpp, rs_failure_test.cpp, rs_debug.cpp, galois_field_test.cpp | all functions | texts other than the digits, the comparison of floats (a parameter) |
| examples/simple_nn/main.cpp | all functions | texts |
| examples, tests, benchmarks, Python, plotting (the remaining ones) | no | not library code |

