#!/usr/bin/env python3
"""Generates properties.jsonl (single source for the English property list)."""
import json, os
P = []
def p(title, statement, quantifier, why, anchors):
    P.append(dict(id="C%02d" % (len(P)+1), title=title, statement=statement,
                  quantifier=quantifier, why_tests_cant=why, anchors=anchors))

# ---- buckets -------------------------------------------------------------
p("FIFO bucket keeps exactly the newest 128 ids",
  "After any sequence of Add and Reset calls, FifoBucket.GetAll contains exactly the ids of the last min(n,128) Adds since the last Reset (n = number of Adds since then): the j-th Add since Reset (0-based) returns slot j mod 128 and slot s holds the latest id whose position is s modulo 128.",
  "every finite history of Add/Reset with arbitrary ids, of any length (including past 64-bit counter wrap)",
  "histories are unbounded; tests stop at 130 adds",
  ["bucket/fifo/fifo.go: FifoBucket.Add, Reset, GetAll, New"])
p("FIFO Retrieve contract",
  "FifoBucket.Retrieve(i) returns -1 for i >= 128, 0 for a slot below 128 not written since the last Reset, the stored id otherwise, and panics exactly for negative i; it never exposes an id added before the last Reset.",
  "every history and every integer index",
  "must hold for every history; stale data after Reset stays physically in the backing array",
  ["bucket/fifo/fifo.go: FifoBucket.Retrieve, Reset"])
p("Slices handed out by GetAll are live views",
  "A slice returned by FifoBucket.GetAll is never changed by Adds made while the bucket is not yet full, but it aliases the bucket: an Add to a full bucket or Adds after Reset rewrite the cells of a slice returned earlier. Users relying on a snapshot are safe exactly until then.",
  "every history before and after the GetAll call",
  "aliasing depends on the later history, not on the call itself",
  ["bucket/fifo/fifo.go: GetAll, Add, Reset", "lsh/lsh.go: RetrieveRaw"])
p("Legacy bucket agrees with the FIFO bucket",
  "For every history of Add/Reset, bucket.Bucket and fifo.FifoBucket return the same slot from each Add and the same value from each Retrieve(i), i >= 0; Bucket.GetSize is the number of Adds since Reset; and Bucket.GetAll is nil exactly when nothing was added, otherwise its first min(n,128) cells are the FIFO content.",
  "every history of Add/Reset/Retrieve",
  "equivalence over unbounded histories",
  ["bucket/bucket.go: Bucket.*", "bucket/fifo/fifo.go"])
p("Legacy bucket GetAll is read-only",
  "Calling Bucket.GetAll does not change what later Retrieve calls return.",
  "every history and every index",
  "needs all interleavings of GetAll with other calls",
  ["bucket/bucket.go: Bucket.GetAll"])
# ---- LSH -----------------------------------------------------------------
p("LSH tables are independent FIFO maps",
  "After any sequence of Add/AddSingle/Clear calls that did not panic, RetrieveRaw(indices)[t] holds exactly the newest min(n,128) ids that were added to cell (table t, index indices[t]) since the last Clear, and nothing from any other cell; Retrieve(t,i,s) reads slot s of that cell.",
  "every history of Add/AddSingle/Clear, every table and index",
  "unbounded histories over all cells",
  ["lsh/lsh.go: LSH.Add, AddSingle, Clear, RetrieveRaw, Retrieve"])
p("LSH Add/RetrieveRaw panic exactly on bad indices",
  "LSH.Add and RetrieveRaw succeed exactly when the index slice has at least l entries and each of the first l lies in [0, 2^rangePow); otherwise they panic with an index error. They never read or write another table.",
  "all index slices and all tables",
  "all integers and slice lengths",
  ["lsh/lsh.go: LSH.Add, RetrieveRaw"])
p("Minhash bucket indices are always valid",
  "With the DensifiedMinhash function, HashesToIndex maps any hash codes (any 64-bit values, including the failure code MinInt64) to l indices in [0, 2^rangePow), so the following Add/RetrieveRaw cannot panic.",
  "all hash codes, all random multipliers, all k, l, rangePow <= 62",
  "64-bit wrap-around arithmetic over all values",
  ["lsh/lsh.go: HashesToIndex"])
p("SRP bucket indices are valid and collision-free",
  "With SparseRandomProjection, for 0/1 codes and k <= 62, each table index is the k-bit number spelled by its codes: it lies in [0, 2^k) and two code groups share an index only if they are equal.",
  "all 0/1 code vectors, all k <= 62, all l",
  "2^k code vectors, all k",
  ["lsh/lsh.go: HashesToIndex", "sparse_random_projection/sparse_random_projection.go"])
p("WTA-style bucket indices separate different codes",
  "With WTA/DensifiedWTA, two different groups of k codes in [0,8) get different table indices.",
  "all code groups in [0,8)^k",
  "all k and all code groups",
  ["lsh/lsh.go: HashesToIndex, logBinSize, binSize"])
p("DWTA bucket indices are in range",
  "With DensifiedWTA codes in [0,8) and 3k <= rangePow (the intended 3 bits per code) every index produced by HashesToIndex lies in [0, 2^rangePow); the exact worst case is 7*(4^k-1)/3, so rangePow >= 2k+2 already suffices and is needed for k >= 2.",
  "all code groups, all k <= 30, all rangePow",
  "all k and code groups",
  ["lsh/lsh.go: HashesToIndex, logBinSize"])
p("WTA bucket indices are in range",
  "With the (non-densified) WTA function and 3k <= rangePow, every hash produced by wta_hash leads to a valid table index, so building the tables never panics.",
  "all weight vectors and all random permutations",
  "all permutations and data",
  ["lsh/lsh.go: HashesToIndex, Add", "wta_hash/wta_hash.go: GetHash, GetHashDense"])
p("Random multipliers are positive and odd",
  "positiveOddRandomInt returns a positive odd int (no overflow) for every value the random source can return, hence every rand1/randHash entry is positive and odd.",
  "all values in [0, 2^63)",
  "2^63 values incl. the boundary",
  ["lsh/lsh.go: positiveOddRandomInt", "densified_wta_hash/densified_wta_hash.go: positiveOddRandomInt", "densified_minhash/densified_minhash.go: positiveOddRandomInt"])
# ---- WTA -----------------------------------------------------------------
p("WTA hash is the arg-max of its bin",
  "For every permutation table built by wta_hash.New and every data vector with one entry per dimension, code i is the feature index, among the 8 permuted features of bin i, whose value is maximal (the first such), provided some value exceeds -2^63; otherwise the code is MinInt64. No panic occurs.",
  "all dimensions, hash counts, permutations (random outcomes) and data",
  "all random permutations and real data",
  ["wta_hash/wta_hash.go: New, GetHash, GetHashDense"])
p("WTA hash depends only on the ranking",
  "Applying any strictly increasing transformation to the data (that keeps values above -2^63) leaves all WTA codes unchanged.",
  "all data, all strictly increasing maps",
  "quantifies over functions",
  ["wta_hash/wta_hash.go: GetHash, GetHashDense"])
p("WTA sparse and dense hashing agree",
  "wta_hash.GetHash on the index/value pairs of a vector equals GetHashDense on the vector itself.",
  "all vectors and all pair lists denoting them",
  "all sparse encodings",
  ["wta_hash/wta_hash.go: GetHash, GetHashDense"])
# ---- DWTA ----------------------------------------------------------------
p("DWTA codes lie in [0,8)",
  "Every code returned by densified_wta_hash GetHash and GetHashEasy lies in [0,8), for any data (empty, sparse, NaN), including when densification fails.",
  "all data, permutations and random multipliers",
  "all inputs and random outcomes",
  ["densified_wta_hash/densified_wta_hash.go: New, GetHash, GetHashEasy"])
p("DWTA slot table is a partition",
  "densified_wta_hash.New assigns every (permutation, feature) slot to exactly one (bin, position) with position < 8, and two different slots never share the same (bin, position); every bin below numHashes receives 8 slots.",
  "all sizes and random permutations",
  "all permutations",
  ["densified_wta_hash/densified_wta_hash.go: New"])
p("DWTA dense hash is the arg-max of its bin",
  "For a dense vector with one value above -2^63 per dimension, GetHashEasy returns for every bin the position of the maximal value among the features of that bin and never needs densification.",
  "all dense vectors, permutations, sizes",
  "all vectors and permutations",
  ["densified_wta_hash/densified_wta_hash.go: GetHashEasy"])
p("Densification terminates with a genuine code or the failure code",
  "For each empty bin the probing loop stops after at most 101 probes, only probes bins in [0,numHashes), and yields the code of a non-empty bin or the documented failure value (0 for DWTA, MinInt64 for minhash).",
  "all bin occupancies and random multipliers with logNumHash <= 31",
  "all occupancies and 64-bit multipliers",
  ["densified_wta_hash/densified_wta_hash.go: GetHash, GetHashEasy, GetRandDoubleHash, minInt", "densified_minhash/densified_minhash.go: GetHash, GetRandDoubleHash, minInt"])
p("DWTA sparse and dense hashing agree",
  "densified_wta_hash.GetHash on the index/value pairs of a vector equals GetHashEasy on the vector.",
  "all vectors and pair lists denoting them",
  "all sparse encodings",
  ["densified_wta_hash/densified_wta_hash.go: GetHash, GetHashEasy"])
# ---- minhash --------------------------------------------------------------
p("Minhash code is an extremum of the bin and order-insensitive",
  "densified_minhash.GetHash ignores the data values, is invariant under permutation and duplication of the active index list, and the code of a non-empty bin is the largest active index mapped to that bin.",
  "all index lists, bin maps and permutations of the list",
  "all permutations of all lists",
  ["densified_minhash/densified_minhash.go: GetHash"])
p("Minhash bin map stays in range",
  "GetMap(n) returns n bin ids in [0, numHashes), whatever 64-bit hashes the hash function returns.",
  "all n, numHashes >= 1, rangePow and hash values",
  "all 64-bit hash values and sizes",
  ["densified_minhash/densified_minhash.go: GetMap", "layer/layer.go: New (passes previousLayerNumOfNodes as rangePow)"])
p("Top-K selection keeps the K largest values",
  "GetHashEasy and GetHashEasyDense hash exactly the positions of the topK largest values (ties broken arbitrarily).",
  "all data and topK <= len(data)",
  "all data orders; heap internals",
  ["densified_minhash/densified_minhash.go: GetHashEasy, GetHashEasyDense", "densified_minhash/index_value_pairs.go: Less"])
p("Top-K hashing precondition",
  "GetHashEasy(Dense) panics exactly when fewer than topK values are supplied (or a selected position has no valid bin); with enough values and valid bins it returns numHashes codes.",
  "all lengths, all data",
  "all lengths",
  ["densified_minhash/densified_minhash.go: GetHashEasy, GetHashEasyDense", "layer/layer.go: topK"])
p("Top-K hashing uses feature indices",
  "GetHashEasy on sparse index/value pairs hashes the features' indices, not their positions in the list: reordering the pairs of a vector does not change the result (for distinct values).",
  "all pair lists",
  "all reorderings",
  ["densified_minhash/densified_minhash.go: GetHashEasy"])
# ---- SRP ------------------------------------------------------------------
p("SRP samples are sorted, distinct and in range",
  "sparse_random_projection.New gives each hash a strictly increasing list of ceil(dim/ratio) feature indices in [0,dim), for every random outcome.",
  "all dim, ratio >= 1, numHashes, random outcomes",
  "all permutations",
  ["sparse_random_projection/sparse_random_projection.go: New"])
p("SRP sparse and dense hashing agree",
  "GetHashSparse on index/value pairs with strictly increasing indices equals GetHash on the corresponding dense vector (absent features = 0).",
  "all vectors, all increasing pair lists, all projections",
  "all sparse encodings and projections",
  ["sparse_random_projection/sparse_random_projection.go: GetHash, GetHashSparse"])
p("SRP sparse hashing tolerates any feature order",
  "GetHashSparse gives the same codes for every ordering of the same index/value pairs.",
  "all orderings",
  "all permutations of the input",
  ["sparse_random_projection/sparse_random_projection.go: GetHashSparse", "dataset/xcrepo/xcrepo.go: parseFeatures (does not sort)"])
p("SRP codes are sign bits",
  "Each SRP code is 0 or 1; it is 0 exactly when the signed sum of the sampled coordinates is >= 0; positive scaling keeps all codes and negation flips every code whose sum is not 0 (exact arithmetic).",
  "all vectors, scales and projections",
  "all vectors and scales",
  ["sparse_random_projection/sparse_random_projection.go: GetHash"])
# ---- scanner ---------------------------------------------------------------
p("Scanned examples respect the header bounds",
  "Whenever Scan returns true, the example has at least one feature, every feature index is in [0, NumFeatures()) and every label in [0, NumLabels()), with NumFeatures, NumLabels, TotalPoints > 0.",
  "all byte inputs and all numbers of Scan calls",
  "all inputs",
  ["dataset/xcrepo/xcrepo.go: Scan, parseLabels, parseFeatures, scanHeader"])
p("Scanner errors are sticky",
  "Once Err() is non-nil, every later Scan returns false, Err() keeps the same value, LineNumber() does not move, and Example() is empty.",
  "all inputs and all later call sequences",
  "all call sequences",
  ["dataset/xcrepo/xcrepo.go: Scan, Err"])
p("Scanner round-trip",
  "Writing a header and any list of in-bounds examples (labels joined by ',', then features 'i:v' separated by single spaces, one example per line, with or without final newline) and scanning it yields exactly those examples in order, then false with a nil error.",
  "all example lists within the header bounds, line lengths below the 64 KiB scanner limit",
  "all example lists",
  ["dataset/xcrepo/xcrepo.go: NewScanner, Scan, Example"])
p("Line numbers count the lines consumed",
  "LineNumber() is 1 after NewScanner (header) and increases by one for each line handed to parsing, so after an error it is the 1-based number of the offending line.",
  "all inputs and numbers of Scan calls",
  "all inputs",
  ["dataset/xcrepo/xcrepo.go: Scan, scanHeader, LineNumber", "goslide.go: trainSvmEpoch error report"])
p("Malformed lines are reported with the right error",
  "A line with a wrong label token yields ErrMalformedLabels or ErrLabelOutOfBounds, a line without features (including an empty line) ErrMissingFeatures, a feature token that is not exactly int:float ErrMalformedFeatures, an out-of-range index ErrFeatureIndexOutOfBounds; the first offending token in line order decides; a header that is not three positive integers gives ErrMalformedHeader.",
  "all lines",
  "all strings",
  ["dataset/xcrepo/xcrepo.go: Scan, parseLabels, parseFeatures, scanHeader"])
p("Over-long lines are rejected, never truncated",
  "A line of 65536 bytes or more makes Scan return false with a non-nil error and no example; a shorter line is delivered whole.",
  "all inputs",
  "sizes",
  ["dataset/xcrepo/xcrepo.go: NewScanner (default bufio.Scanner buffer), Scan, Err"])
# ---- driver ----------------------------------------------------------------
p("Rehash and rebuild schedule",
  "In layer modes 1 and 4 with Rehash >= BatchSize, training passes rehash=true exactly at global iterations congruent to -1 modulo Rehash/BatchSize (same for Rebuild), across all epochs; in modes 2 and 3 never. With |Rehash| < BatchSize (or |Rebuild| < BatchSize) in these modes the program panics with integer division by zero at the first batch.",
  "all configurations, epochs and batches",
  "all configurations",
  ["goslide.go: trainSvmEpoch"])
p("Batching consumes the training file in order",
  "One training epoch hands ProcessInput numBatches batches whose concatenation is the first min(numBatches*BatchSize, file length) examples in file order; each batch has at most BatchSize examples and all but the last non-empty one are full.",
  "all files, batch sizes and batch counts",
  "all files",
  ["goslide.go: trainSvmEpoch, evaluateSvm"])
p("Reported accuracy is a proportion",
  "The accuracy printed by evaluation is totCorrect/(numBatches*BatchSize) with 0 <= totCorrect <= numBatches*BatchSize.",
  "all test files and networks",
  "all inputs",
  ["goslide.go: evaluateSvm", "network/network.go: PredictClass"])
p("Layer type assignment",
  "makeLayersTypes(n) gives n types, the last Softmax and all others ReLU; it panics for n <= 0.",
  "all n",
  "all n",
  ["goslide.go: makeLayersTypes"])
p("Configuration defaults survive partial JSON",
  "FromJsonFile returns, for every field absent from the JSON object, the default value, and for every present field the given value; on any read or decode error it returns nil and the error.",
  "all JSON objects",
  "all objects",
  ["configuration/configuration.go: Default, FromJsonFile"])
# ---- node ------------------------------------------------------------------
p("Node activation formula",
  "GetActivation(data, input) returns bias + sum of weight*value accumulated in data order, clamped at 0 for ReLU, records it as the input's last activation, marks the input active, and changes no weight, bias or Adam state; it panics exactly when the input id is not below the batch size, a feature index is outside the weight vector, or the node type is invalid.",
  "all nodes, data and input ids",
  "all data",
  ["node/node.go: GetActivation, GetLastActivation"])
p("Activation/back-propagation protocol",
  "IncrementDelta, ComputeExtaStatsForSoftMax, BackPropagate and BackPropagateFirstLayer panic unless the input is active on the node; after a (first-layer) BackPropagate the input is inactive with zero activation and zero delta, so GetLastActivation is 0 and a second BackPropagate panics.",
  "all nodes and call histories",
  "all call orders",
  ["node/node.go: IncrementDelta, ComputeExtaStatsForSoftMax, BackPropagate, BackPropagateFirstLayer"])
p("Gradient accumulation",
  "With Adam, BackPropagate adds delta*activation(prev) to the gradient of exactly the weights of the listed previous nodes and delta to the bias gradient; it adds delta*weight to the delta of each listed previous node whose activation is positive and leaves the weights unchanged.",
  "all nodes and active lists without duplicates",
  "all lists",
  ["node/node.go: BackPropagate, BackPropagateFirstLayer, IncrementDelta"])
p("Copy-on-write isolates per-input training state and scalars",
  "Calling GetActivation, SetlastActivation, IncrementDelta, ComputeExtaStatsForSoftMax, SetBias, SetTBias, SetAdamAvgMomBias, SetAdamAvgVelBias with a cowId that owns neither the node nor any of its parts returns a node reflecting the change and leaves everything observable through the original node unchanged.",
  "all nodes, heaps and arguments",
  "all heap shapes",
  ["node/node.go: cloneIfNeeded, clone, SetBias, SetlastActivation, ..."])
p("Copy-on-write isolates weight and Adam vectors",
  "Calling SetT, SetAdamAvgMom, SetAdamAvgVel, PurturbWeight, CopyWeightsAndBiasFromMirror or (First-layer) BackPropagate with a foreign cowId leaves the weights, Adam moments and gradients observable through the original node unchanged.",
  "all nodes and arguments",
  "aliasing across handles",
  ["node/node.go: copyFloat64Slice, clone"])
p("Copy-on-write is safe under cowId reuse",
  "For every sequence of operations with arbitrary cowIds, an operation never changes what is observable through node handles obtained earlier that carry a different cowId than the operation.",
  "all histories of clones and updates over any cowIds",
  "all histories",
  ["node/node.go: cloneIfNeeded"])
p("Same-cowId operations update in place",
  "With cowId equal to the owner's, every node operation returns the same node handle and the getter of the field just set returns the new value while all other getters are unchanged.",
  "all nodes, indices and values",
  "all combinations of setters and getters",
  ["node/node.go: Set*/Get*"])
p("Plain SGD applies gradients only at the end of the batch",
  "With UseAdam=false, back-propagation leaves Weights() unchanged until CopyWeightsAndBiasFromMirror is called.",
  "all nodes and batches",
  "all batches",
  ["node/node.go: NewNode, Update (mirrorWeights: weights), BackPropagate"])
p("SGD bias step of the first layer",
  "With UseAdam=false, BackPropagateFirstLayer changes the mirror bias by learningRate*delta.",
  "all rates and deltas",
  "all values",
  ["node/node.go: BackPropagateFirstLayer"])
p("Softmax gradient vanishes at the target distribution",
  "ComputeExtaStatsForSoftMax assigns (target - probability)/batchSize, so the delta is 0 when the probability equals the target 1/len(labels).",
  "all labels, batch sizes and activations",
  "all values",
  ["node/node.go: ComputeExtaStatsForSoftMax"])
# ---- layer -----------------------------------------------------------------
p("Full layers activate every node",
  "With sparsity 1.0 the active list is 0..n-1, whatever the layer mode and hash function.",
  "all layers and inputs",
  "all layers",
  ["layer/layer.go: QueryActiveNodeAndComputeActivations"])
p("Sampling mode (4): active set",
  "In mode 4 with distinct in-range labels, the active list is strictly increasing node ids in range, contains every id retrieved from the hash tables and, for softmax layers, every label; it has at least min(1000, n) entries; nodes beyond retrieved ids and labels are added only up to 1000 entries.",
  "all tables, labels, random starts and random-node permutations",
  "all random outcomes and table contents",
  ["layer/layer.go: QueryActiveNodeAndComputeActivations (LayerMode4)"])
p("Sampling mode (4): active nodes are distinct for any labels",
  "In mode 4 the active list never contains a node twice, whatever in-range labels the example carries.",
  "all label lists",
  "all label lists incl. duplicates accepted by the scanner",
  ["layer/layer.go: LayerMode4", "dataset/xcrepo/xcrepo.go: parseLabels"])
p("Threshold mode (1): active set",
  "In mode 1 the active set is exactly the ids retrieved more than 2 times over the tables, where on softmax layers each label counts l extra; each id appears once; the set does not depend on map iteration order.",
  "all tables, labels and map orders",
  "map iteration order is random",
  ["layer/layer.go: LayerMode1, threshold"])
p("Threshold mode (1): labels are always active",
  "In mode 1, during training every true label of a softmax layer is active.",
  "all labels and table counts l",
  "all configurations",
  ["layer/layer.go: LayerMode1"])
p("Random mode (2): active set",
  "In mode 2 on a softmax layer with distinct labels and at most floor(n*sparsity) of them, whenever sampling finishes the active list has exactly floor(n*sparsity) distinct in-range ids starting with the labels; with more labels than that it panics; at every moment of sampling an unused node exists.",
  "all random sequences",
  "all random sequences, unbounded loop",
  ["layer/layer.go: LayerMode2"])
p("Exact top-k mode (3) works for sparse layers",
  "In mode 3 on a softmax layer with sparsity < 1, the query selects the floor(n*sparsity) nodes with the largest pre-activation.",
  "all layers and inputs",
  "all layers",
  ["layer/layer.go: LayerMode3"])
p("Softmax values are normalised",
  "After a query on a softmax layer, the value of each active node is exp(a - m) with m = max(0, all activations), it equals the node's last activation, and the normalisation constant of the input is the sum of these values over the active list; in exact arithmetic each value is in (0,1] and the normalised values sum to less than 1.",
  "all activations and active lists",
  "all inputs",
  ["layer/layer.go: QueryActiveNodeAndComputeActivations", "node/node.go: ComputeExtaStatsForSoftMax"])
p("Random node order stays a permutation",
  "After New and any number of UpdateRandomNodes calls, the padding order is a permutation of 0..n-1, so padding can reach every node.",
  "all random outcomes and call counts",
  "all histories",
  ["layer/layer.go: New, UpdateRandomNodes"])
p("Nodes of a layer do not share parameters",
  "After layer.New, updating any parameter of node i never changes a parameter or training state of node j != i, although all nodes are slices of common arrays.",
  "all node pairs, indices and values",
  "all pairs",
  ["layer/layer.go: New"])
p("Initial hash tables contain every node",
  "After layer.New each node id is stored in every table at the index of its weight vector unless at least 128 later nodes fell in the same cell.",
  "all sizes and random weights",
  "all random outcomes",
  ["layer/layer.go: New, addToHashTable"])
p("LoadWeight configuration works",
  "network.New succeeds when LoadWeight is set.",
  "all configurations",
  "all configurations",
  ["network/network.go: New", "layer/layer.go: New"])
# ---- network ---------------------------------------------------------------
p("Prediction is the arg-max and counts correctly",
  "PredictClass returns the number of examples whose predicted class is among their labels, where the predicted class is the first active output node with maximal activation (class 0 when no output node is active); the count is between 0 and the number of examples.",
  "all networks and example batches",
  "all inputs",
  ["network/network.go: PredictClass"])
p("Prediction never changes parameters",
  "PredictClass, with any cowId, changes no weight, bias, Adam moment, gradient accumulator, hash table or hasher of the network.",
  "all networks, examples and cowIds",
  "all networks and aliasing shapes",
  ["network/network.go: PredictClass", "layer/layer.go", "node/node.go: GetActivation, SetlastActivation"])
p("Training step is panic-free on valid input",
  "On a network built by network.New with Adam, ProcessInput called with the owner's cowId on at most batchSize examples with in-range features and distinct in-range labels (full layers, or mode 4) does not panic and leaves a network on which the same holds again.",
  "all networks, batches, random outcomes and histories of training and prediction calls",
  "unbounded histories",
  ["network/network.go: ProcessInput", "layer/layer.go", "node/node.go"])
p("Adam update formula and gradient reset",
  "After ProcessInput with Adam, each weight w becomes w + lr*m'/(sqrt(v')+1e-8) with m' = 0.9 m + 0.1 g, v' = 0.999 v + 0.001 g*g where g is the gradient accumulated over the batch (same for biases), and every gradient accumulator is 0.",
  "all networks and batches",
  "all inputs",
  ["network/network.go: ProcessInput"])
p("Rehash leaves the tables consistent with the weights",
  "After ProcessInput with rehash=true, in every layer with sparsity < 1 each node id is stored in every table at the index computed from its new weights unless at least 128 higher-numbered nodes fell in the same cell, and no other entries exist.",
  "all networks and weights",
  "all weights",
  ["network/network.go: ProcessInput"])
p("Rebuild keeps the tables consistent with the hash functions",
  "After ProcessInput with rebuild=true, every node is stored where the layer's current hash function puts its weights.",
  "all (rehash, rebuild) flags",
  "all flag histories",
  ["network/network.go: ProcessInput", "layer/layer.go: UpdateTable", "goslide.go: trainSvmEpoch"])
p("Network copy-on-write",
  "ProcessInput and PredictClass with a foreign cowId leave the original network unchanged.",
  "all networks and cowIds",
  "aliasing",
  ["network/network.go: clone", "layer/layer.go: clone"])
p("Training is deterministic given the random draws",
  "With all layers full (sparsity 1.0), the result of ProcessInput does not depend on the random source or map iteration order at all (outside the iterations that reshuffle the padding order).",
  "all random streams",
  "all random streams",
  ["network/network.go: ProcessInput", "layer/layer.go"])
# ---- what training does, over the real numbers --------------------------------
p("Training follows the gradient of one explicit objective",
  "With exact real arithmetic, ReLU hidden layers and a softmax output layer, a ProcessInput step with Adam applies to every weight and bias of every layer the Adam update for the exact partial derivative, at the parameters before the step, of one function of all parameters: the sum over the batch of (mean value of the active label nodes) - (1/batchSize) log(sum over the active output nodes of exp(value - shift) + 1e-7). So back-propagation is right for that function, for any number of layers and any sets of active nodes.",
  "all networks built by New and then used by their owner, all batches, all random outcomes; no active hidden node with pre-activation exactly 0",
  "derivatives in all parameters of networks of any depth",
  ["network/network.go: ProcessInput", "node/node.go: ComputeExtaStatsForSoftMax, BackPropagate, BackPropagateFirstLayer, IncrementDelta"])
p("Training follows the gradient of the log-likelihood",
  "The objective of C72 is, up to a constant, the mean over the batch of the log-likelihood of the labels (negative cross entropy), so that training maximizes the likelihood.",
  "all networks, batches and batch sizes",
  "all networks and batches",
  ["node/node.go: ComputeExtaStatsForSoftMax", "network/network.go: ProcessInput"])
# ---- the whole program --------------------------------------------------------
p("The whole program runs to completion and makes exactly the scheduled calls",
  "For a consistent configuration (positive batch size and periods, an entry of every list for every layer, hash codes that fit the tables) and well-formed data files whose examples fit the network, the program builds the network, calls ProcessInput and PredictClass exactly in the order, with the batches, iteration numbers and rehash/rebuild flags of the training schedule, and ends without a panic. With a wrong number of arguments or an unusable configuration file it exits before doing anything; with a missing list of layer parameters it never succeeds.",
  "all configurations, data files, random outcomes",
  "whole runs of any length on any data, for any random outcomes",
  ["goslide.go: main, trainSvmEpoch, evaluateSvm, validateArguments, loadGlobalConfiguration", "network/network.go", "layer/layer.go", "node/node.go"])
p("Every hash function handles sparse examples",
  "Whichever of the four hash functions is configured, a network whose tables are large enough for the codes can be trained on, and predicts, examples that list only some of the features.",
  "all networks, batches and the four hash functions",
  "all inputs and random permutations",
  ["layer/layer.go: QueryActiveNodeAndComputeActivations", "wta_hash/wta_hash.go: GetHash", "densified_minhash/densified_minhash.go: GetHashEasy"])
p("The data set reader does not depend on how the bytes arrive, and never hides a read failure",
  "However the underlying reader splits the file into pieces (including empty reads), the scanner delivers the same examples, errors and line numbers. If the reader fails at any byte, the examples delivered are a prefix of those of the intact file, never one made from a truncated line, and Err() is not nil once Scan has returned false.",
  "all files, all ways of splitting them, all points of failure",
  "all split and crash points",
  ["dataset/xcrepo/xcrepo.go: NewScanner, Scan, scanHeader, Err"])
p("float64 arithmetic has the properties the code relies on",
  "With float64 as IEEE-754 binary64 (round to nearest even, subnormals, signed zeros, infinities, NaN): comparison is a strict weak order of the numbers; floor and ceiling of the quotient of two integers up to 2^53 are exact although the division rounds; adding or subtracting +0 changes nothing in a sum started at +0. Hence sparse and dense random projections agree bit for bit and minhash bins are in range.",
  "all float64 values, all exact results before rounding",
  "2^128 pairs of operands",
  ["sparse_random_projection/sparse_random_projection.go: New, GetHash, GetHashSparse", "densified_minhash/densified_minhash.go: GetMap", "wta_hash/wta_hash.go: GetHash"])
p("The unit tests of the repository pass for every random stream",
  "Every assertion of the unit tests of the repository (bucket, fifo, lsh, wta_hash, densified_wta_hash, densified_minhash, sparse_random_projection) holds whatever numbers math/rand and maphash deliver; where a test uses ten fixed values, it holds for any ten values in the same order.",
  "all random streams, all maphash functions, all hash functions in the LSH test, all values of the shape used",
  "a test run sees one random stream; an assertion can pass in one run and fail in another",
  ["bucket/bucket_test.go", "bucket/fifo/fifo_test.go", "lsh/lsh_test.go", "wta_hash/wta_hash_test.go", "densified_wta_hash/densified_wta_hash_test.go", "densified_minhash/densified_minhash_test.go", "sparse_random_projection/sparse_random_projection_test.go"])

p("The printed log of a whole run is determined by the counts of correct predictions",
  "A run of main prints the epochs, the batch numbers and the accuracies of every evaluation, in the order of the schedule; each accuracy is the quotient of the correct predictions so far and the examples evaluated so far, and the counts are those the network returned. Every accuracy printed is the quotient of two integers 0 <= a <= b with b > 0.",
  "all configurations, files, random draws and networks",
  "all runs; a test checks one log",
  ["goslide.go: main, trainSvmEpoch, evaluateSvm"])
p("Random sampling (layer mode 2) ends exactly because the source is fair",
  "With layer mode 2, no more labels than nodes wanted, and a random source that delivers every residue again and again, every history of training and prediction and the whole program end without panic after finitely many draws. If labels and draws together hit fewer different nodes than wanted, no number of draws suffices: the call never returns.",
  "all fair random sources, all configurations with DWTA or SRP tables large enough, all histories; all unfair sources for the converse",
  "termination with probability one cannot be observed; all random streams",
  ["layer/layer.go: QueryActiveNodeAndComputeActivations", "network/network.go: ProcessInput, PredictClass"])

p("The random orders are uniform and independent",
  "When the draws of math/rand are independent and uniform below their bounds, rand.Shuffle gives each order of n different items with probability 1/n!; the permutations of wta_hash.New are independent and uniform although each shuffles the result of the one before; and each round of sparse_random_projection.New samples every feature with probability samSize/dim.",
  "all sizes, all items, all outcomes of the draws (counted exactly), all states left by the rounds before",
  "probabilities; n! orders",
  ["wta_hash/wta_hash.go: New", "densified_wta_hash/densified_wta_hash.go: New", "sparse_random_projection/sparse_random_projection.go: New"])
p("The codes of a random projection are unbiased",
  "Over the draws of New, a code of a sparse random projection is 0 at least as often as 1, exactly as often if no signed sum of the sampled coordinates vanishes, and always one of the two.",
  "all vectors, dimensions, ratios; all outcomes of the draws (counted exactly)",
  "probabilities over all random projections",
  ["sparse_random_projection/sparse_random_projection.go: New, GetHash"])
p("The reservoir sampling of a bucket keeps a uniform sample",
  "With the constant fifo set to false, the next id offered to a full bucket that has seen c ids is kept with probability 128/(c+1), as a uniform sample requires.",
  "all full buckets, all counters, all ids, all outcomes of the draws",
  "probabilities; the branch is never compiled in",
  ["bucket/bucket.go: Add"])
p("The codes of the winner-take-all hashes are distributed as intended",
  "For a bin that lies within one permutation: the feature with the strictly largest value is the WTA code with probability 8/dim; and all 8 DWTA codes of a vector of different values have probability 1/8.",
  "all dimensions, numbers of hashes, vectors, bins; all outcomes of the draws (counted exactly)",
  "probabilities over all sequences of permutations",
  ["wta_hash/wta_hash.go: New, GetHashDense", "densified_wta_hash/densified_wta_hash.go: New, GetHashEasy"])

p("Steps of training are bounded by the learning rate",
  "With Adam, every training step (ProcessInput) moves every weight and bias by at most 7.28 times the learning rate, whatever the examples and labels are; a run of the whole program moves them by at most 7.28 * LearningRate * Epoch * (TotRecords / BatchSize).",
  "all networks made by New and all later states, all batches, all hash functions and modes, in exact arithmetic",
  "a bound over all inputs, histories of moments and numbers of steps",
  ["network/network.go: ProcessInput", "node/node.go: BackPropagate, BackPropagateFirstLayer", "goslide.go: main"])
p("Random multipliers are uniform odd numbers",
  "The multipliers of new tables, of densified minhash and of densified WTA are independent and uniform on the odd numbers below 2^63.",
  "all sizes; all outcomes of the draws (counted exactly)",
  "probabilities over all 2^63 values of each draw",
  ["lsh/lsh.go: New, positiveOddRandomInt", "densified_minhash/densified_minhash.go: New", "densified_wta_hash/densified_wta_hash.go: New"])
p("The order of the examples in a batch does not matter",
  "For full layers trained with Adam in exact arithmetic, the weights, biases and moments after training depend only on those at the start and on the batches as collections: not on the order of the examples in a batch, nor on the hash functions, the tables, the rehash and rebuild flags, the predictions in between or the random numbers.",
  "all networks made by New, all sequences of batches and predictions, all configurations of the hashing, all programs that finish",
  "equality of two executions over all permutations of all batches",
  ["network/network.go: ProcessInput", "node/node.go: BackPropagate, BackPropagateFirstLayer", "goslide.go: main"])
p("Features that never occur keep their initial weights",
  "The weights that the first layer has for a feature do not change as long as the feature occurs in no training example. Without Adam a training step changes no weight of a feature that is not in the batch.",
  "all networks made by New, all sequences of batches and predictions, all hash functions and modes, all features; with Adam in exact arithmetic, without Adam in any arithmetic",
  "all histories of training; every feature of every data set",
  ["network/network.go: ProcessInput", "node/node.go: BackPropagateFirstLayer", "goslide.go: main"])
p("The first training step goes uphill",
  "In the first training step with Adam every weight and bias x with partial derivative d of the training objective (C72) becomes x + rate * d / (|d| + sqrt(1000)*1e-8): it moves in the direction of its derivative, by less than the learning rate and by almost the learning rate if |d| >= 1. Later steps need not go uphill.",
  "all networks of ReLU layers and a softmax layer made by New, all batches, all hash functions and modes, in exact arithmetic",
  "derivatives with respect to every parameter for all inputs",
  ["network/network.go: ProcessInput", "node/node.go: BackPropagate, BackPropagateFirstLayer, NewNode"])
p("Training on empty batches",
  "When the training file has fewer examples than TotRecords says, the program trains on empty batches. Without Adam such a step changes no weight and no bias. With Adam it is a step with gradients 0: the moments decay, and whatever has momentum goes on moving. A run with an empty training file ends with the initial weights.",
  "all networks made by New, all states reached by training and prediction, all hash functions and modes; for single steps in any arithmetic",
  "all histories of training; all states of the moments",
  ["network/network.go: ProcessInput", "node/node.go: BackPropagate", "goslide.go: main"])

p("The syntax of the configuration file",
  "The configuration file is accepted by the parser exactly if it is a JSON text (RFC 8259, at most 10000 levels deep), each text has one value, and a configuration written as a JSON object is read back unchanged.",
  "all byte strings; all configurations whose integers fit their types, whose strings are UTF-8 and whose floats are written as the number parser reads them",
  "all byte strings, all nestings and escapes",
  ["configuration/configuration.go: FromJsonFile"])

p("Texts of floating-point numbers",
  "A number in a data file or in the configuration (decimal or hexadecimal, with an exponent below 100000) is read as the nearest binary64 number, ties to even; too large numbers are errors, too small ones are zeros with the same sign; the words nan, inf and infinity are accepted in data files; everything else is an error. Every binary64 value has a text that is read back, so data files and configurations with float64 values survive writing and reading.",
  "all byte strings; all binary64 values; all data files and configurations",
  "2^64 values and all texts for them",
  ["dataset/xcrepo/xcrepo.go: parseFeatures", "configuration/configuration.go: FromJsonFile"])

p("From the bytes of the files to the end of the program",
  "With a configuration and data sets written to files (JSON; header and one example per line, with LF or CRLF), the program called with the path of the configuration runs to its end in binary64, makes the training and prediction calls of C74 on exactly the examples written and prints the log of C79. If the configuration file is missing or no JSON text, the program exits at once.",
  "all configurations with the layer parameters of C74 (hash functions DWTA, SRP or minhash) and without LoadWeight or mode 2, all data sets that fit them, all random numbers, all functions exp, sqrt and pow on binary64",
  "whole runs for all configurations and data sets",
  ["goslide.go: main", "configuration/configuration.go: FromJsonFile", "dataset/xcrepo/xcrepo.go: Scanner"])

p("A training step changes only active nodes, and these are few",
  "A training step changes only nodes that are active for one of its examples, and of the weights of a node only those of inputs (features, or nodes of the previous layer) that are active for an example for which the node is active too; everything else is unchanged, or with Adam takes a step with gradient 0. For an example the active nodes of a layer are distinct and, if the layer is sparse, at most max(1000, 128*L + labels) in mode 4, at most 128*L/3 + labels in mode 1 and at most floor(size*sparsity) in mode 2, whatever the size of the layer (labels count in softmax layers only). In softmax layers the labels are active in the modes 2, 3 and 4, and in mode 1 with L >= 3.",
  "all networks made by New, all states reached by training and prediction, all batches, all hash functions and modes, all random numbers, any arithmetic",
  "all networks, batches and contents of the hash tables; a test would see a handful of active sets",
  ["network/network.go: ProcessInput", "layer/layer.go: QueryActiveNodeAndComputeActivations", "node/node.go: BackPropagate, BackPropagateFirstLayer"])

p("Every layer has its own hash function of the configured family",
  "Every layer of a network has a hash function of the family that the configuration names (1 winner-take-all, 2 densified winner-take-all, 3 densified minwise hashing, 4 sparse random projections), for K*L codes and for vectors with as many components as the layer has inputs, also after the hash functions have been renewed during training. With any other number no network with layers is made. With minwise hashing the layers of a new network use different seeds.",
  "all networks made by New, all states reached by training and prediction, all random numbers and seeds",
  "all configurations and all histories of a network",
  ["layer/layer.go: New, UpdateTable", "network/network.go: New, ProcessInput", "densified_minhash/densified_minhash.go: New", "configuration/configuration.go: HashFunction"])

p("One NaN in the training data ruins a network for good",
  "If a feature value of a training example is NaN (the data files may contain the word nan), then after the training step all nodes that were active for the example, in all layers, have a NaN bias. A bias or weight that is NaN stays NaN in all further training, with and without Adam. If all layers are full, then all biases of the network are NaN after that step, and from then on the network predicts class 0 for every example.",
  "all networks made by New, all states, all batches with such an example at any place, all later calls, all arithmetics in which NaN propagates (binary64 among them)",
  "all networks, batches and later calls",
  ["network/network.go: ProcessInput, PredictClass", "node/node.go: GetActivation, BackPropagate, BackPropagateFirstLayer, ComputeExtaStatsForSoftMax", "layer/layer.go: QueryActiveNodeAndComputeActivations"])

p("The driver does not overflow its 64-bit integers",
  "With the wrapping arithmetic of Go's 64-bit int in goslide.go (numbers of batches, iteration numbers, maintenance flags, counts of features, labels and correct predictions), the driver does exactly what it does with unbounded integers, if the batch size is not negative, the number of training batches of all epochs together is a 64-bit integer, Rehash and Rebuild are not -2^63 and the test file has fewer than 2^63 bytes. All int fields of a configuration that was read are 64-bit integers. Beyond the bound the iteration number turns negative and maintenance steps are left out.",
  "all configurations and files, all networks whose predictions are counts (that of the code among them), all states",
  "no test runs 2^63 batches",
  ["goslide.go: main, trainSvmEpoch, evaluateSvm, makeLayersTypes", "configuration/configuration.go: FromJsonFile"])

p("Sparse random projections keep inner products on average",
  "Over the random choices of a round of sparse_random_projection.New (m of dim features, each with a random sign), the projection of a vector has mean 0, the product of the projections of two vectors has mean m/dim times their inner product, and the squared distance of the projections has mean m/dim times the squared distance of the vectors. The hash code of C30 is the sign of this projection. Every row of a projection comes from such a round.",
  "all dimensions, numbers of samples and vectors (exact arithmetic), all orders left by the rounds before; means over uniform independent draws",
  "a statement about all outcomes of the random source",
  ["sparse_random_projection/sparse_random_projection.go: New, GetHash"])

p("Probability that two vectors get the same winner-take-all code",
  "For two dense vectors whose values are pairwise different and above -2^63, and a bin of 8 places inside one permutation, the codes of the two vectors (WTA and densified WTA) are equal with exactly the probability that both vectors have the same largest feature among 8 features chosen at random: the sum over the features f of C(n_f, 7) divided by C(dim, 8), where n_f is the number of features both vectors put below f. So the hash is sensitive to the order of the features: agreeing on more pairs never makes a collision less likely, and vectors of opposite order never collide.",
  "all dimensions, numbers of hashes, bins inside a permutation and vectors with different values; probabilities over uniform independent draws of New",
  "a statement about all outcomes of the random source, and about every pair of vectors",
  ["wta_hash/wta_hash.go: New, GetHashDense", "densified_wta_hash/densified_wta_hash.go: New, GetHashEasy"])

p("A layer built from given arrays holds exactly these weights, biases and moments",
  "With LoadWeight, layer.New takes the weights, biases and (with Adam) moments from the arrays that it is given: node m has row m of the weights, bias m and row m of the moments, zero gradients and idle training states. The weights are not copied: an assignment to a weight of a node changes the given array. If they are shorter than needed, New panics. If the arrays do not overlap, using a node never changes another node. The hash tables hold the nodes where the hash function puts the given weights.",
  "all configurations with LoadWeight, sizes, node types, hash functions, arrays (also parts of longer ones) and random streams for which New returns; all uses of the nodes",
  "the program never passes arrays to layer.New (network.New passes nil), so this path is never run; a wrong offset or a copy would show only after weights were loaded",
  ["layer/layer.go: New", "node/node.go: Update, Weights"])

p("Without Adam the biases of the first layer drift upwards",
  "Without Adam, BackPropagateFirstLayer adds the learning rate itself to the mirror bias (learningRate + delta instead of learningRate * delta). So after any batches of N examples the bias of a node of the first layer is its old bias plus N times the learning rate plus the plain sum of the deltas. A node that gets no gradient at all keeps its weights but its bias still rises by the learning rate for every example, and deltas that are smaller than the rate cannot stop the rise. In the other layers a zero delta changes nothing.",
  "all sequences of batches of examples, features within the weights, deltas sent by the next layer, learning rates and nodes of the first layer (exact arithmetic)",
  "a slow drift looks like training in every short run; that there is no equilibrium is a statement about all sequences of examples",
  ["node/node.go: BackPropagateFirstLayer, GetActivation, IncrementDelta, CopyWeightsAndBiasFromMirror, BackPropagate", "network/network.go: ProcessInput"])

p("A dead node of the first layer stays dead with Adam and wakes up without it",
  "A node of a hidden first layer is dead for an example if its bias plus the weighted sum of the feature values is negative, so that its activation is clamped to 0. A training step on examples for which a node is dead leaves the node alone with Adam (its moments decay and its weights follow them); a node whose moments are zero therefore stays as it is for as long as it is dead for all examples, with predictions and maintenance in between. Without Adam the step keeps the weights of the node but adds the learning rate to its bias for every example for which it was active. If all nodes of the layer are computed, training on one example over and over therefore wakes the node up as soon as the number of examples times the learning rate makes up for what is missing.",
  "all networks with a hidden first layer made by New, all states reached by training and predicting, all batches, iteration numbers, maintenance flags, random streams and later calls (exact real arithmetic)",
  "dead nodes are noticed, if at all, as a loss of accuracy; that they never recover (or always do) is a statement about all further training",
  ["node/node.go: GetActivation, BackPropagateFirstLayer, IncrementDelta, Update, CopyWeightsAndBiasFromMirror", "network/network.go: ProcessInput", "layer/layer.go: QueryActiveNodeAndComputeActivations"])

p("Every initial weight and bias is a draw of its own",
  "Without LoadWeight, the weights and biases of a new network, layer by layer and the weights of a layer before its biases, are exactly the first values of rand.NormFloat64, as many as there are parameters, each multiplied by 0.01; the moments are zero (with Adam) or absent. Nothing else matters: not the hash function and its random numbers, the node types, the batch size, the learning rate or the sparsity. If no two draws are equal then no two parameters are, so that no two nodes begin alike.",
  "all configurations without LoadWeight, sizes and random streams for which network.New returns",
  "overlapping or repeated parts of the weight arrays would give plausible random weights; that all nodes are independent is a statement about all sizes and indices",
  ["layer/layer.go: New", "network/network.go: New", "node/node.go: Update"])

p("How an example is written does not matter if all layers are full",
  "In exact arithmetic, a network whose layers are all full learns and predicts from the value of every feature (the sum of the values given for it) and from the set and the number of the labels. Features and labels may be given in any order, a feature may be split into several parts, and features of value 0 may be left out. From the same network, training steps on two forms of the same examples, with Adam or without, lead to the same weights, biases and moments, whether or not the tables are rehashed or rebuilt, and PredictClass counts the same number of correct predictions.",
  "all networks made by New with full layers and any numbers of layers and nodes, all states reached by training and predicting, all sequences of batches, iteration numbers, maintenance flags and random streams (exact real arithmetic)",
  "tests use data in one form; a pass that took only the first occurrence of a feature, or depended on its position, would look right on clean files",
  ["node/node.go: GetActivation, BackPropagateFirstLayer, ComputeExtaStatsForSoftMax", "layer/layer.go: QueryActiveNodeAndComputeActivations", "network/network.go: ProcessInput, PredictClass"])

with open(os.path.join(os.path.dirname(__file__), "..", "properties.jsonl"), "w") as f:
    for x in P:
        f.write(json.dumps(x) + "\n")
print(len(P))
