# Formal model of nlpodyssey/goslide in Lean 4 — design

## Layout

* `lean/Verif/Go/*`      – the fragment of Go semantics used (panics, slices, 64-bit ints, floats, RNG, heap)
* `lean/Verif/Model/*`   – the model, one file per Go package, every definition cites `/repo` lines
* `lean/Verif/Spec/*`    – small independent specifications used in theorem statements
* `lean/Verif/Proofs/*`  – helper lemmas
* `lean/Verif/Props/*`   – the property theorems `Cnn_*`, one file per area, with non-vacuity `example`s

## Modelling conventions

* **Panics** are values: `Go α = Except Panic α`; index/slice bounds, division by zero and explicit `panic`s are distinct constructors.
* **Integers**: `Int`/`Nat` unless wrap-around matters; then `BitVec 64` (hash arithmetic, bucket counters).
* **Floats**: `float64` is an abstract type `F` with the operations the code uses (`class GoFloat`) and *no laws*.
  A theorem which needs an order or arithmetic law takes it as an explicit hypothesis class; concrete
  instances (with NaN, and exact ordered fields) show that these classes are inhabited. Evaluation order is kept,
  so formulas are literal. Fused multiply-add (allowed by the Go spec on some CPUs) is not modelled.
* **Randomness** (`math/rand`), map iteration order, `maphash` are explicit arguments: theorems quantify over
  every stream of draws / every order / every hash function.
* **Pointers and slices**: for `node`, `layer`, `network` an explicit heap (addresses of nodes, base nodes,
  train records, float arrays, pointer arrays), so aliasing and copy-on-write are visible. In the pure hashing
  packages slices are `List`s because nothing aliases there (exception: `fifo`, which models its backing array).
* **Loops** are folds or structural recursion; the one possibly non-terminating loop (layer mode 2 sampling)
  takes fuel and all theorems quantify over the fuel.
* **Time, printing, profiling, file opening** are not modelled.

## Per-property plan

All 104 properties of `properties.jsonl` are expressible in the model. "False" means that the property as written does not hold of
the code; then there is a theorem with a concrete witness of the negation and a `_partial` theorem with what does hold.

| id | what is modelled | how it is proved |
|----|------------------|------------------|
| C01, C02 | `fifo`: backing array of 128 cells, slice length, 64-bit counter | refinement to the list of Adds since Reset, induction over histories |
| C03 | the same backing array read through an older slice | frame lemma for cells |
| C04 | `bucket` | simulation against `fifo` |
| C05 | `bucket`, `GetAll` writing its marker | False; `_partial`: the one slot that changes |
| C06, C07 | `lsh`: list of tables of fifo buckets | refinement to a map from cells to histories |
| C08, C09, C11 | `HashesToIndex` on `BitVec 64` | positional arithmetic, worst case |
| C10 | the same | False (log of the bin size is floor(ln 8)); `_partial`: exact collisions |
| C12 | the same with WTA codes | False (indices as digits); `_partial`: sufficient condition |
| C13 | `positiveOddRandomInt` on 64-bit ints | arithmetic |
| C14, C15 | `wta_hash` with Fisher–Yates shuffles driven by arbitrary draws | fold invariants |
| C16 | `wta_hash.GetHash` | False; `_partial` |
| C17–C20 | `densified_wta_hash`: slot tables, densification by 64-bit double hashing | bijection of slots, fold invariants |
| C21 | `densified_wta_hash.GetHash` | False; `_partial` |
| C22, C25 | `densified_minhash`, `container/heap` | heap invariants |
| C23 | `GetMap` with 64-bit shifts and float division | `_partial` up to 53 bits with the law `FloatIntDiv`; false from 54 on in binary64 |
| C24, C26 | `GetHashEasy`, `GetHashEasyDense` | False; `_partial`: exact selection |
| C27, C28, C30 | `sparse_random_projection` | merge-loop induction |
| C29 | the same | False; `_partial`: left-to-right maxima |
| C31–C36 | `xcrepo` scanner over byte lists, `strconv.Atoi`, `strings.Split`, `bufio.Scanner` with its line limit | induction over the calls, round trip; C34 false for over-long lines |
| C37–C40 | driver loops of `goslide.go`, over any network with the two calls, and over the model network | arithmetic, list induction |
| C41 | configuration record; decoded JSON object with key folding, null, duplicates, type errors | case analysis |
| C42–C45, C48 | `node` over the heap | views of nodes, frame lemmas |
| C46, C47 | copy-on-write of nodes | False; `_partial`: scalars and training states |
| C49–C51 | SGD and softmax deltas | False; `_partial`: exact formulas |
| C52, C53, C55, C57, C59, C60 | `layer` query in all modes over the heap | counting lemmas, fold invariants |
| C54, C56, C58 | the same | False; `_partial` |
| C61, C62 | `layer.New` | separation of slices, invariant of the tables |
| C63 | `network.New` | False with `LoadWeight`; `_partial`: succeeds without (DWTA, SRP, minhash with 30 to 53 inputs) |
| C64, C65, C71 | `network.PredictClass`, `ProcessInput` | closed form of the forward pass, heap invariant |
| C66 | histories of New, training, prediction | heap invariant kept by every call; false for tables that are too small; `_partial`: `LayersOk` (any mode but 2; DWTA, SRP, minhash) |
| C67 | `ProcessInput` | closed form of forward, backward and Adam passes |
| C68, C69 | rehash and rebuild | table invariant; C69 false without rehash |
| C70 | `network.clone` | False for training; `_partial`: predictions, and what is shared |
| C72 | the closed form of C67 over the real numbers | derivatives by induction over the layers |
| C73 | the same | False for batches of two or more; `_partial` for one, if the labels are active (full last layer, or modes 2 to 4, or mode 1 with L ≥ 3, by C94); exact difference |
| C74 | composition of C36, C38, C63, C66 along the schedule of calls (`Spec/Program.lean`) | Any mode but 2; DWTA, SRP or minhash (as in C63 and C66), `_partial` |
| C75 | hash functions on sparse input | False for winner-takes-all and minhash (every sparse example panics, proved for all networks); `_partial`: DWTA, SRP, minhash with 30 features or more |
| C76 | `bufio.Scanner` with its buffer, over a reader that delivers pieces and may fail (`Model/Bufio.lean`) | simulation against the model that reads the whole content; the first half false in one corner, `_partial` |
| C77 | IEEE-754 binary64 (`Go/Binary64.lean`) | exactness and error bound of rounding; the law classes as instances |
| C78 | the unit tests of /repo against the models of the seven packages | evaluation where nothing is random, otherwise from C06–C30 |
| C79 | the program run along `blocks`/`logOf` of `Spec/Program.lean`; an invariant of the log for the proportions | the log equation holds for every configuration the driver accepts, also for runs that panic |
| C80 | the progress proofs take a `Pace` (admissible bounds and sources); fairness gives a bound on the draws, `Sampled.stuck` the converse | tables as in C66 |
| C81 | the draws as finite lists of digits; `countOutcomes` counts them (`Spec/Random.lean`) | induction over the steps of Fisher–Yates |
| C82 | the same, with one bit for each sampled feature | reversing all signs is a bijection of the outcomes |
| C83 | the branch of `bucket.Add` for `fifo = false` (dead code), apart from the rest of the model | False; `_partial`: exact count |
| C84 | the sequence of permutations behind both tables | exchanging two places is an involution that keeps the counts |
| C85 | weights, moments and their order of update along the life of a network (`Spec/Adam.lean`), over ℝ | invariant `m² ≤ 370/7 · v` for every pair of moments; the factor of the rate is at most 1 |
| C86 | draws below 2^63 as in C81, with the bound generalised | each odd number comes from two draws, induction over the multipliers |
| C87 | two runs with possibly different configurations, real numbers | a training step with Adam adds to each gradient a sum over the examples that depends on the weights at the start of the batch only; sums do not depend on the order; induction over the batches. False without Adam |
| C88 | any network made by `New`, any calls | what a node of the first layer stores for input f is touched only through the inputs of the examples; an Adam step with gradient 0 and moments 0 changes nothing; induction over the calls |
| C89 | a network made by `New`, the first training step, real numbers | C72 with moments 0; the bias correction of iteration 0 cancels the factors 0.1 and √0.001 |
| C90 | networks made by `New`, steps on the empty batch; runs of empty batches | the batch is the empty fold, only the closing update remains: without Adam it copies the mirrors back (equal to the weights, an invariant), with Adam it is the step with gradients 0; moments 0 stay 0 |
| C91 | `json.Unmarshal`, syntax | the recursive descent parser (`Model/Json.lean`) against a grammar (`Spec/Json.lean`): sound by induction on the fuel, complete by induction on the derivation; UTF-8 decoding inverts encoding; round trip through the writer with C41 |
| C92 | `strconv.ParseFloat` | reader of digits, point, exponent and underscores (`Model/ParseFloat.lean`) against a grammar with values (`Spec/ParseFloat.lean`); the thresholds of overflow and underflow from `Binary64.round`; exact decimals `num·5^k e-k` of dyadic rationals give the round trips of C33 and C91 |
| C93 | Files to log, in binary64 | C74 with the parsers of C91 and C92 and the instance of C77; the round trips C92_config and C92_data_file give its hypotheses on the files |
| C94 | Only active nodes change | the simulation of a training step (C65) with the query that picked each active set (`Picked`); back-propagation leaves what it does not visit (Proofs/Active.lean); the sizes come from the buckets (at most 128 ids per table) and the loops of the modes (Proofs/ActiveBound.lean) |
| C95 | Hash functions of the configured family | the invariant of the life of a network (`Kept.hasher`); no other step of the construction takes seeds or adds layers (Proofs/Hashers.lean) |
| C96 | One NaN in the training data ruins a network | law class `FloatNaN` (Go/FloatNaN.lean); properties that gradients cannot undo (`Lasting`), then NaN is followed forwards and backwards through the layers (Proofs/NaN.lean) |
| C97 | The driver does not overflow | the driver with `wrap` after every operation (`Model/Driver64.lean`) equals the ideal one: bounds on batches and iterations, and the scanner consumes at least as many bytes as it delivers features, labels or examples (Proofs/Driver64.lean) |
| C98 | Sparse random projections keep inner products on average | sum over the signs by induction on the sampled features, then over the shuffle with the place counts of C81 |
| C99 | Probability that two vectors get the same winner-take-all code | count of shuffles with given positions in a set and one position fixed (Proofs/Pattern.lean, induction on the shuffle), summed over the winning feature and place |
| C100 | A layer built from given arrays holds exactly these weights, biases and moments | memory after `New` with LoadWeight, by induction on the loop over the nodes (Proofs/LayerLoad.lean), then as C61 and C62; overlap shown to matter by an example |
| C101 | Without Adam the biases of the first layer drift upwards | the calls of one example from the node operations of C45-C50, then induction over the examples and the batches (exact arithmetic) |
| C102 | A dead node of the first layer stays dead with Adam and wakes up without it | one example from the views of C64 (clamped activation takes no delta), induction over the batch, then C94 for the rest of the step; calls by induction (exact real arithmetic) |
| C103 | Every initial weight and bias is a draw of its own | the plan of a new layer (C61) with the draws it uses, induction over the layers |
| C104 | How an example is written does not matter if all layers are full | sums over features depend on the value of every feature only, congruence of the passes, induction over the calls |

## What is modelled and what is not

Modelled function by function (each definition cites file and lines): all of `bucket`, `bucket/fifo`, `lsh`, `wta_hash`, `densified_wta_hash`,
`densified_minhash` (with the part of `container/heap` it uses), `sparse_random_projection`, `dataset/xcrepo`, `node`, `layer`, `network`,
`configuration` (after tokenizing), and the loops of `goslide.go` including `main` (`Model/Program.lean`).

Not modelled:

* Printing (only the order and values of the lines that carry results are kept), timing, profiling, `NodeType.String`, `Layer.NumOfNodes` as a function of its own.
* The JSON scanner of the standard library works byte by byte; `Model/Json.lean` models it as a recursive descent over the same grammar (C91). The theorems on `FromJsonFile` and the whole program hold for every `parse`.
* `strconv.ParseFloat`: a parameter of the scanner and the program; the theorems hold for every parser. For binary64 it is modelled (`Model/ParseFloat.lean`, C92) by exact arithmetic and one rounding instead of the table-driven algorithms of the library.
* `bufio.Scanner` is modelled twice: as lines of the whole input with the token limit (`Model/Xcrepo.lean`), and with its buffer over a
  reader that delivers pieces and errors (`Model/Bufio.lean`); C76 relates them. Readers that return a count outside `0..len(p)` are not modelled.
* Concurrency: the code has none in these paths.
* Integer overflow of `int` outside the hash arithmetic, the bucket counters and the driver (C97), that is of sizes and indices in memory: these are
  unbounded integers, so the statements speak about runs without overflow there.
* Out of memory, stack overflow. Slices have no capacity, except where the code depends on it (`fifo`, `minhash`: spare cells).
* Rounding. Where no law is assumed the theorems hold for any float operations, hence for IEEE 754 in the evaluation order of the
  source. Fused multiply-add is not modelled. C72, C73 are about exact real arithmetic.
* Separate stores: the normalization constants of a layer are kept apart from the other float arrays, since nothing else points to them.
* `Node.Update` is modelled and used in `layer.New`, but not part of the histories of C47 (it replaces the whole node).
* The training loop variable `fuel`: only for the rejection sampling of layer mode 2. C80 says when some fuel suffices and when none does.

## Disagreements between the properties and the code

Each has a theorem; file and line in `/repo`.

* C05: `bucket/bucket.go:75` `GetAll` writes -1 behind the last id.
* C10: `lsh/lsh.go` uses `floor(ln 8) = 2` bits per code of 3 bits: codes overlap.
* C12, C16, C21, C26: the sparse variants use the position in the list for the feature index.
* C23: from 54 bits on, hashes are rounded up to `2^rangePow` and the bin is one too large; `1<<rangePow` with `rangePow` = number of input features overflows from 63 on; from 64 on division by zero.
* C24: the priority queue keeps the smallest values (`index_value_pairs.go:22`).
* C29: `GetHashSparse` skips pairs that are not in increasing order.
* C34: an over-long line is not counted.
* C37: a rehash or rebuild period shorter than one batch divides by zero.
* C46, C47, C70: `copyFloat64Slice` returns its argument (`node/node.go:527`), and `clone` copies no slices (`network/network.go:323`).
* C49, C50: without Adam the mirror weights are the weights; the mirror bias gets `lr + delta` instead of `lr * delta` (`node/node.go:409`).
* C51, C73: for labels only the probability is divided by the batch size (`node/node.go:317-319`). Training then does not maximize the
  likelihood but a function that grows without bound with the biases of the last layer.
* C54: a repeated label makes node 0 active once more; C66: then training panics.
* C56: with one or two tables labels are not active in mode 1.
* C58: mode 3 panics for every sparse softmax layer.
* C63: `LoadWeight` panics.
* C66: tables with fewer cells than there are codes (SRP) make training panic after a successful `New`.
* C69: `rebuild` without `rehash` leaves tables of the old hash function; `trainSvmEpoch` can do that (C37).
* C75: with winner-takes-all hashing (`wta_hash/wta_hash.go:78`) or minhash (`densified_minhash.go:90`, `topK = 30`) and a sparse first layer, every
  example that lists fewer features than inputs (than 30) makes training and prediction panic.
* C76: `bufio` treats a last line of exactly 65536 bytes as a line if its last bytes come together with `io.EOF`, otherwise as too long.
* C74: the default configuration (an empty JSON object) panics in `network.New`.

## Trusted base

Lean 4.33 kernel. Axioms: every theorem listed in `MANIFEST.json` depends on at most `propext`, `Classical.choice`, `Quot.sound`
(`tools/axioms.sh` prints them theorem by theorem). No own axioms, no `native_decide`, no `bv_decide`, no `sorry`.
The fidelity of the hand-written model to the Go code (citations in each definition).
Go standard library behaviour as stated in the comments of the model (`math/rand`, `container/heap`, `sort`,
`strconv`, `strings`, `bufio`).

The law classes for floats are hypotheses of the theorems that name them: `FloatOrder` (comparison of non-NaN values), `FloatIntDiv` (division of
exactly representable integers), `FloatZero` (adding zero), `FloatEq` (equality of non-NaN values), `FloatNaN` (NaN propagates; needs `Exp(NaN)` = NaN). They are proved for IEEE-754 binary64 in `Go/Binary64.lean` (C77),
and for exact arithmetic in `Go/Exact.lean` (rationals) and `Go/Real.lean` (real numbers).

## Mutation tests

`tools/mutate.py` applies hand-written bugs to the model in a scratch copy and lists the property theorems that then fail; the results are in
`seeded/LOG.jsonl`. `tools/automut.py` makes small edits of every definition automatically; survivors were inspected one by one.

The harness joins modules into one file, which can break a proof by itself (a name becomes ambiguous). It therefore runs the unedited text
first and does not count what fails there. Hand-written entries before C96 were logged without this check. Where the same names recur
from entry to entry (lines 104-145) each entry was seen to have further failures that fit its edit; the others were not re-run, so a name in
such a list may be due to the joining. An entry means that the proof as written fails; for an edit
that keeps the claim true the theorem may be provable in another way. For automatic edits ("behaviour of ...") only the first declaration at
which the build stops is known, often a lemma; which property theorems depend on it was not determined. Builds that ended without an error of Lean are no result and not logged.
