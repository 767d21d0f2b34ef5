{"id": "C01", "title": "FIFO bucket keeps exactly the newest 128 ids", "statement": "After any sequence of Add and Reset calls, FifoBucket.GetAll contains exactly the ids of the last min(n,128) Adds since the last Reset (n = number of Adds since then): the j-th Add since Reset (0-based) returns slot j mod 128 and slot s holds the latest id whose position is s modulo 128.", "quantifier": "every finite history of Add/Reset with arbitrary ids, of any length (including past 64-bit counter wrap)", "why_tests_cant": "histories are unbounded; tests stop at 130 adds", "anchors": ["bucket/fifo/fifo.go: FifoBucket.Add, Reset, GetAll, New"]}
{"id": "C02", "title": "FIFO Retrieve contract", "statement": "FifoBucket.Retrieve(i) returns -1 for i >= 128, 0 for a slot below 128 not written since the last Reset, the stored id otherwise, and panics exactly for negative i; it never exposes an id added before the last Reset.", "quantifier": "every history and every integer index", "why_tests_cant": "must hold for every history; stale data after Reset stays physically in the backing array", "anchors": ["bucket/fifo/fifo.go: FifoBucket.Retrieve, Reset"]}
{"id": "C03", "title": "Slices handed out by GetAll are live views", "statement": "A slice returned by FifoBucket.GetAll is never changed by Adds made while the bucket is not yet full, but it aliases the bucket: an Add to a full bucket or Adds after Reset rewrite the cells of a slice returned earlier. Users relying on a snapshot are safe exactly until then.", "quantifier": "every history before and after the GetAll call", "why_tests_cant": "aliasing depends on the later history, not on the call itself", "anchors": ["bucket/fifo/fifo.go: GetAll, Add, Reset", "lsh/lsh.go: RetrieveRaw"]}
{"id": "C04", "title": "Legacy bucket agrees with the FIFO bucket", "statement": "For every history of Add/Reset, bucket.Bucket and fifo.FifoBucket return the same slot from each Add and the same value from each Retrieve(i), i >= 0; Bucket.GetSize is the number of Adds since Reset; and Bucket.GetAll is nil exactly when nothing was added, otherwise its first min(n,128) cells are the FIFO content.", "quantifier": "every history of Add/Reset/Retrieve", "why_tests_cant": "equivalence over unbounded histories", "anchors": ["bucket/bucket.go: Bucket.*", "bucket/fifo/fifo.go"]}
{"id": "C05", "title": "Legacy bucket GetAll is read-only", "statement": "Calling Bucket.GetAll does not change what later Retrieve calls return.", "quantifier": "every history and every index", "why_tests_cant": "needs all interleavings of GetAll with other calls", "anchors": ["bucket/bucket.go: Bucket.GetAll"]}
{"id": "C06", "title": "LSH tables are independent FIFO maps", "statement": "After any sequence of Add/AddSingle/Clear calls that did not panic, RetrieveRaw(indices)[t] holds exactly the newest min(n,128) ids that were added to cell (table t, index indices[t]) since the last Clear, and nothing from any other cell; Retrieve(t,i,s) reads slot s of that cell.", "quantifier": "every history of Add/AddSingle/Clear, every table and index", "why_tests_cant": "unbounded histories over all cells", "anchors": ["lsh/lsh.go: LSH.Add, AddSingle, Clear, RetrieveRaw, Retrieve"]}
{"id": "C07", "title": "LSH Add/RetrieveRaw panic exactly on bad indices", "statement": "LSH.Add and RetrieveRaw succeed exactly when the index slice has at least l entries and each of the first l lies in [0, 2^rangePow); otherwise they panic with an index error. They never read or write another table.", "quantifier": "all index slices and all tables", "why_tests_cant": "all integers and slice lengths", "anchors": ["lsh/lsh.go: LSH.Add, RetrieveRaw"]}
{"id": "C08", "title": "Minhash bucket indices are always valid", "statement": "With the DensifiedMinhash function, HashesToIndex maps any hash codes (any 64-bit values, including the failure code MinInt64) to l indices in [0, 2^rangePow), so the following Add/RetrieveRaw cannot panic.", "quantifier": "all hash codes, all random multipliers, all k, l, rangePow <= 62", "why_tests_cant": "64-bit wrap-around arithmetic over all values", "anchors": ["lsh/lsh.go: HashesToIndex"]}
{"id": "C09", "title": "SRP bucket indices are valid and collision-free", "statement": "With SparseRandomProjection, for 0/1 codes and k <= 62, each table index is the k-bit number spelled by its codes: it lies in [0, 2^k) and two code groups share an index only if they are equal.", "quantifier": "all 0/1 code vectors, all k <= 62, all l", "why_tests_cant": "2^k code vectors, all k", "anchors": ["lsh/lsh.go: HashesToIndex", "sparse_random_projection/sparse_random_projection.go"]}
{"id": "C10", "title": "WTA-style bucket indices separate different codes", "statement": "With WTA/DensifiedWTA, two different groups of k codes in [0,8) get different table indices.", "quantifier": "all code groups in [0,8)^k", "why_tests_cant": "all k and all code groups", "anchors": ["lsh/lsh.go: HashesToIndex, logBinSize, binSize"]}
{"id": "C11", "title": "DWTA bucket indices are in range", "statement": "With DensifiedWTA codes in [0,8) and 3k <= rangePow (the intended 3 bits per code) every index produced by HashesToIndex lies in [0, 2^rangePow); the exact worst case is 7*(4^k-1)/3, so rangePow >= 2k+2 already suffices and is needed for k >= 2.", "quantifier": "all code groups, all k <= 30, all rangePow", "why_tests_cant": "all k and code groups", "anchors": ["lsh/lsh.go: HashesToIndex, logBinSize"]}
{"id": "C12", "title": "WTA bucket indices are in range", "statement": "With the (non-densified) WTA function and 3k <= rangePow, every hash produced by wta_hash leads to a valid table index, so building the tables never panics.", "quantifier": "all weight vectors and all random permutations", "why_tests_cant": "all permutations and data", "anchors": ["lsh/lsh.go: HashesToIndex, Add", "wta_hash/wta_hash.go: GetHash, GetHashDense"]}
{"id": "C13", "title": "Random multipliers are positive and odd", "statement": "positiveOddRandomInt returns a positive odd int (no overflow) for every value the random source can return, hence every rand1/randHash entry is positive and odd.", "quantifier": "all values in [0, 2^63)", "why_tests_cant": "2^63 values incl. the boundary", "anchors": ["lsh/lsh.go: positiveOddRandomInt", "densified_wta_hash/densified_wta_hash.go: positiveOddRandomInt", "densified_minhash/densified_minhash.go: positiveOddRandomInt"]}
{"id": "C14", "title": "WTA hash is the arg-max of its bin", "statement": "For every permutation table built by wta_hash.New and every data vector with one entry per dimension, code i is the feature index, among the 8 permuted features of bin i, whose value is maximal (the first such), provided some value exceeds -2^63; otherwise the code is MinInt64. No panic occurs.", "quantifier": "all dimensions, hash counts, permutations (random outcomes) and data", "why_tests_cant": "all random permutations and real data", "anchors": ["wta_hash/wta_hash.go: New, GetHash, GetHashDense"]}
{"id": "C15", "title": "WTA hash depends only on the ranking", "statement": "Applying any strictly increasing transformation to the data (that keeps values above -2^63) leaves all WTA codes unchanged.", "quantifier": "all data, all strictly increasing maps", "why_tests_cant": "quantifies over functions", "anchors": ["wta_hash/wta_hash.go: GetHash, GetHashDense"]}
{"id": "C16", "title": "WTA sparse and dense hashing agree", "statement": "wta_hash.GetHash on the index/value pairs of a vector equals GetHashDense on the vector itself.", "quantifier": "all vectors and all pair lists denoting them", "why_tests_cant": "all sparse encodings", "anchors": ["wta_hash/wta_hash.go: GetHash, GetHashDense"]}
{"id": "C17", "title": "DWTA codes lie in [0,8)", "statement": "Every code returned by densified_wta_hash GetHash and GetHashEasy lies in [0,8), for any data (empty, sparse, NaN), including when densification fails.", "quantifier": "all data, permutations and random multipliers", "why_tests_cant": "all inputs and random outcomes", "anchors": ["densified_wta_hash/densified_wta_hash.go: New, GetHash, GetHashEasy"]}
{"id": "C18", "title": "DWTA slot table is a partition", "statement": "densified_wta_hash.New assigns every (permutation, feature) slot to exactly one (bin, position) with position < 8, and two different slots never share the same (bin, position); every bin below numHashes receives 8 slots.", "quantifier": "all sizes and random permutations", "why_tests_cant": "all permutations", "anchors": ["densified_wta_hash/densified_wta_hash.go: New"]}
{"id": "C19", "title": "DWTA dense hash is the arg-max of its bin", "statement": "For a dense vector with one value above -2^63 per dimension, GetHashEasy returns for every bin the position of the maximal value among the features of that bin and never needs densification.", "quantifier": "all dense vectors, permutations, sizes", "why_tests_cant": "all vectors and permutations", "anchors": ["densified_wta_hash/densified_wta_hash.go: GetHashEasy"]}
{"id": "C20", "title": "Densification terminates with a genuine code or the failure code", "statement": "For each empty bin the probing loop stops after at most 101 probes, only probes bins in [0,numHashes), and yields the code of a non-empty bin or the documented failure value (0 for DWTA, MinInt64 for minhash).", "quantifier": "all bin occupancies and random multipliers with logNumHash <= 31", "why_tests_cant": "all occupancies and 64-bit multipliers", "anchors": ["densified_wta_hash/densified_wta_hash.go: GetHash, GetHashEasy, GetRandDoubleHash, minInt", "densified_minhash/densified_minhash.go: GetHash, GetRandDoubleHash, minInt"]}
{"id": "C21", "title": "DWTA sparse and dense hashing agree", "statement": "densified_wta_hash.GetHash on the index/value pairs of a vector equals GetHashEasy on the vector.", "quantifier": "all vectors and pair lists denoting them", "why_tests_cant": "all sparse encodings", "anchors": ["densified_wta_hash/densified_wta_hash.go: GetHash, GetHashEasy"]}
{"id": "C22", "title": "Minhash code is an extremum of the bin and order-insensitive", "statement": "densified_minhash.GetHash ignores the data values, is invariant under permutation and duplication of the active index list, and the code of a non-empty bin is the largest active index mapped to that bin.", "quantifier": "all index lists, bin maps and permutations of the list", "why_tests_cant": "all permutations of all lists", "anchors": ["densified_minhash/densified_minhash.go: GetHash"]}
{"id": "C23", "title": "Minhash bin map stays in range", "statement": "GetMap(n) returns n bin ids in [0, numHashes), whatever 64-bit hashes the hash function returns.", "quantifier": "all n, numHashes >= 1, rangePow and hash values", "why_tests_cant": "all 64-bit hash values and sizes", "anchors": ["densified_minhash/densified_minhash.go: GetMap", "layer/layer.go: New (passes previousLayerNumOfNodes as rangePow)"]}
{"id": "C24", "title": "Top-K selection keeps the K largest values", "statement": "GetHashEasy and GetHashEasyDense hash exactly the positions of the topK largest values (ties broken arbitrarily).", "quantifier": "all data and topK <= len(data)", "why_tests_cant": "all data orders; heap internals", "anchors": ["densified_minhash/densified_minhash.go: GetHashEasy, GetHashEasyDense", "densified_minhash/index_value_pairs.go: Less"]}
{"id": "C25", "title": "Top-K hashing precondition", "statement": "GetHashEasy(Dense) panics exactly when fewer than topK values are supplied (or a selected position has no valid bin); with enough values and valid bins it returns numHashes codes.", "quantifier": "all lengths, all data", "why_tests_cant": "all lengths", "anchors": ["densified_minhash/densified_minhash.go: GetHashEasy, GetHashEasyDense", "layer/layer.go: topK"]}
{"id": "C26", "title": "Top-K hashing uses feature indices", "statement": "GetHashEasy on sparse index/value pairs hashes the features' indices, not their positions in the list: reordering the pairs of a vector does not change the result (for distinct values).", "quantifier": "all pair lists", "why_tests_cant": "all reorderings", "anchors": ["densified_minhash/densified_minhash.go: GetHashEasy"]}
{"id": "C27", "title": "SRP samples are sorted, distinct and in range", "statement": "sparse_random_projection.New gives each hash a strictly increasing list of ceil(dim/ratio) feature indices in [0,dim), for every random outcome.", "quantifier": "all dim, ratio >= 1, numHashes, random outcomes", "why_tests_cant": "all permutations", "anchors": ["sparse_random_projection/sparse_random_projection.go: New"]}
{"id": "C28", "title": "SRP sparse and dense hashing agree", "statement": "GetHashSparse on index/value pairs with strictly increasing indices equals GetHash on the corresponding dense vector (absent features = 0).", "quantifier": "all vectors, all increasing pair lists, all projections", "why_tests_cant": "all sparse encodings and projections", "anchors": ["sparse_random_projection/sparse_random_projection.go: GetHash, GetHashSparse"]}
{"id": "C29", "title": "SRP sparse hashing tolerates any feature order", "statement": "GetHashSparse gives the same codes for every ordering of the same index/value pairs.", "quantifier": "all orderings", "why_tests_cant": "all permutations of the input", "anchors": ["sparse_random_projection/sparse_random_projection.go: GetHashSparse", "dataset/xcrepo/xcrepo.go: parseFeatures (does not sort)"]}
{"id": "C30", "title": "SRP codes are sign bits", "statement": "Each SRP code is 0 or 1; it is 0 exactly when the signed sum of the sampled coordinates is >= 0; positive scaling keeps all codes and negation flips every code whose sum is not 0 (exact arithmetic).", "quantifier": "all vectors, scales and projections", "why_tests_cant": "all vectors and scales", "anchors": ["sparse_random_projection/sparse_random_projection.go: GetHash"]}
{"id": "C31", "title": "Scanned examples respect the header bounds", "statement": "Whenever Scan returns true, the example has at least one feature, every feature index is in [0, NumFeatures()) and every label in [0, NumLabels()), with NumFeatures, NumLabels, TotalPoints > 0.", "quantifier": "all byte inputs and all numbers of Scan calls", "why_tests_cant": "all inputs", "anchors": ["dataset/xcrepo/xcrepo.go: Scan, parseLabels, parseFeatures, scanHeader"]}
{"id": "C32", "title": "Scanner errors are sticky", "statement": "Once Err() is non-nil, every later Scan returns false, Err() keeps the same value, LineNumber() does not move, and Example() is empty.", "quantifier": "all inputs and all later call sequences", "why_tests_cant": "all call sequences", "anchors": ["dataset/xcrepo/xcrepo.go: Scan, Err"]}
{"id": "C33", "title": "Scanner round-trip", "statement": "Writing a header and any list of in-bounds examples (labels joined by ',', then features 'i:v' separated by single spaces, one example per line, with or without final newline) and scanning it yields exactly those examples in order, then false with a nil error.", "quantifier": "all example lists within the header bounds, line lengths below the 64 KiB scanner limit", "why_tests_cant": "all example lists", "anchors": ["dataset/xcrepo/xcrepo.go: NewScanner, Scan, Example"]}
{"id": "C34", "title": "Line numbers count the lines consumed", "statement": "LineNumber() is 1 after NewScanner (header) and increases by one for each line handed to parsing, so after an error it is the 1-based number of the offending line.", "quantifier": "all inputs and numbers of Scan calls", "why_tests_cant": "all inputs", "anchors": ["dataset/xcrepo/xcrepo.go: Scan, scanHeader, LineNumber", "goslide.go: trainSvmEpoch error report"]}
{"id": "C35", "title": "Malformed lines are reported with the right error", "statement": "A line with a wrong label token yields ErrMalformedLabels or ErrLabelOutOfBounds, a line without features (including an empty line) ErrMissingFeatures, a feature token that is not exactly int:float ErrMalformedFeatures, an out-of-range index ErrFeatureIndexOutOfBounds; the first offending token in line order decides; a header that is not three positive integers gives ErrMalformedHeader.", "quantifier": "all lines", "why_tests_cant": "all strings", "anchors": ["dataset/xcrepo/xcrepo.go: Scan, parseLabels, parseFeatures, scanHeader"]}
{"id": "C36", "title": "Over-long lines are rejected, never truncated", "statement": "A line of 65536 bytes or more makes Scan return false with a non-nil error and no example; a shorter line is delivered whole.", "quantifier": "all inputs", "why_tests_cant": "sizes", "anchors": ["dataset/xcrepo/xcrepo.go: NewScanner (default bufio.Scanner buffer), Scan, Err"]}
{"id": "C37", "title": "Rehash and rebuild schedule", "statement": "In layer modes 1 and 4 with Rehash >= BatchSize, training passes rehash=true exactly at global iterations congruent to -1 modulo Rehash/BatchSize (same for Rebuild), across all epochs; in modes 2 and 3 never. With |Rehash| < BatchSize (or |Rebuild| < BatchSize) in these modes the program panics with integer division by zero at the first batch.", "quantifier": "all configurations, epochs and batches", "why_tests_cant": "all configurations", "anchors": ["goslide.go: trainSvmEpoch"]}
{"id": "C38", "title": "Batching consumes the training file in order", "statement": "One training epoch hands ProcessInput numBatches batches whose concatenation is the first min(numBatches*BatchSize, file length) examples in file order; each batch has at most BatchSize examples and all but the last non-empty one are full.", "quantifier": "all files, batch sizes and batch counts", "why_tests_cant": "all files", "anchors": ["goslide.go: trainSvmEpoch, evaluateSvm"]}
{"id": "C39", "title": "Reported accuracy is a proportion", "statement": "The accuracy printed by evaluation is totCorrect/(numBatches*BatchSize) with 0 <= totCorrect <= numBatches*BatchSize.", "quantifier": "all test files and networks", "why_tests_cant": "all inputs", "anchors": ["goslide.go: evaluateSvm", "network/network.go: PredictClass"]}
{"id": "C40", "title": "Layer type assignment", "statement": "makeLayersTypes(n) gives n types, the last Softmax and all others ReLU; it panics for n <= 0.", "quantifier": "all n", "why_tests_cant": "all n", "anchors": ["goslide.go: makeLayersTypes"]}
{"id": "C41", "title": "Configuration defaults survive partial JSON", "statement": "FromJsonFile returns, for every field absent from the JSON object, the default value, and for every present field the given value; on any read or decode error it returns nil and the error.", "quantifier": "all JSON objects", "why_tests_cant": "all objects", "anchors": ["configuration/configuration.go: Default, FromJsonFile"]}
{"id": "C42", "title": "Node activation formula", "statement": "GetActivation(data, input) returns bias + sum of weight*value accumulated in data order, clamped at 0 for ReLU, records it as the input's last activation, marks the input active, and changes no weight, bias or Adam state; it panics exactly when the input id is not below the batch size, a feature index is outside the weight vector, or the node type is invalid.", "quantifier": "all nodes, data and input ids", "why_tests_cant": "all data", "anchors": ["node/node.go: GetActivation, GetLastActivation"]}
{"id": "C43", "title": "Activation/back-propagation protocol", "statement": "IncrementDelta, ComputeExtaStatsForSoftMax, BackPropagate and BackPropagateFirstLayer panic unless the input is active on the node; after a (first-layer) BackPropagate the input is inactive with zero activation and zero delta, so GetLastActivation is 0 and a second BackPropagate panics.", "quantifier": "all nodes and call histories", "why_tests_cant": "all call orders", "anchors": ["node/node.go: IncrementDelta, ComputeExtaStatsForSoftMax, BackPropagate, BackPropagateFirstLayer"]}
{"id": "C44", "title": "Gradient accumulation", "statement": "With Adam, BackPropagate adds delta*activation(prev) to the gradient of exactly the weights of the listed previous nodes and delta to the bias gradient; it adds delta*weight to the delta of each listed previous node whose activation is positive and leaves the weights unchanged.", "quantifier": "all nodes and active lists without duplicates", "why_tests_cant": "all lists", "anchors": ["node/node.go: BackPropagate, BackPropagateFirstLayer, IncrementDelta"]}
{"id": "C45", "title": "Copy-on-write isolates per-input training state and scalars", "statement": "Calling GetActivation, SetlastActivation, IncrementDelta, ComputeExtaStatsForSoftMax, SetBias, SetTBias, SetAdamAvgMomBias, SetAdamAvgVelBias with a cowId that owns neither the node nor any of its parts returns a node reflecting the change and leaves everything observable through the original node unchanged.", "quantifier": "all nodes, heaps and arguments", "why_tests_cant": "all heap shapes", "anchors": ["node/node.go: cloneIfNeeded, clone, SetBias, SetlastActivation, ..."]}
{"id": "C46", "title": "Copy-on-write isolates weight and Adam vectors", "statement": "Calling SetT, SetAdamAvgMom, SetAdamAvgVel, PurturbWeight, CopyWeightsAndBiasFromMirror or (First-layer) BackPropagate with a foreign cowId leaves the weights, Adam moments and gradients observable through the original node unchanged.", "quantifier": "all nodes and arguments", "why_tests_cant": "aliasing across handles", "anchors": ["node/node.go: copyFloat64Slice, clone"]}
{"id": "C47", "title": "Copy-on-write is safe under cowId reuse", "statement": "For every sequence of operations with arbitrary cowIds, an operation never changes what is observable through node handles obtained earlier that carry a different cowId than the operation.", "quantifier": "all histories of clones and updates over any cowIds", "why_tests_cant": "all histories", "anchors": ["node/node.go: cloneIfNeeded"]}
{"id": "C48", "title": "Same-cowId operations update in place", "statement": "With cowId equal to the owner's, every node operation returns the same node handle and the getter of the field just set returns the new value while all other getters are unchanged.", "quantifier": "all nodes, indices and values", "why_tests_cant": "all combinations of setters and getters", "anchors": ["node/node.go: Set*/Get*"]}
{"id": "C49", "title": "Plain SGD applies gradients only at the end of the batch", "statement": "With UseAdam=false, back-propagation leaves Weights() unchanged until CopyWeightsAndBiasFromMirror is called.", "quantifier": "all nodes and batches", "why_tests_cant": "all batches", "anchors": ["node/node.go: NewNode, Update (mirrorWeights: weights), BackPropagate"]}
{"id": "C50", "title": "SGD bias step of the first layer", "statement": "With UseAdam=false, BackPropagateFirstLayer changes the mirror bias by learningRate*delta.", "quantifier": "all rates and deltas", "why_tests_cant": "all values", "anchors": ["node/node.go: BackPropagateFirstLayer"]}
{"id": "C51", "title": "Softmax gradient vanishes at the target distribution", "statement": "ComputeExtaStatsForSoftMax assigns (target - probability)/batchSize, so the delta is 0 when the probability equals the target 1/len(labels).", "quantifier": "all labels, batch sizes and activations", "why_tests_cant": "all values", "anchors": ["node/node.go: ComputeExtaStatsForSoftMax"]}
{"id": "C52", "title": "Full layers activate every node", "statement": "With sparsity 1.0 the active list is 0..n-1, whatever the layer mode and hash function.", "quantifier": "all layers and inputs", "why_tests_cant": "all layers", "anchors": ["layer/layer.go: QueryActiveNodeAndComputeActivations"]}
{"id": "C53", "title": "Sampling mode (4): active set", "statement": "In mode 4 with distinct in-range labels, the active list is strictly increasing node ids in range, contains every id retrieved from the hash tables and, for softmax layers, every label; it has at least min(1000, n) entries; nodes beyond retrieved ids and labels are added only up to 1000 entries.", "quantifier": "all tables, labels, random starts and random-node permutations", "why_tests_cant": "all random outcomes and table contents", "anchors": ["layer/layer.go: QueryActiveNodeAndComputeActivations (LayerMode4)"]}
{"id": "C54", "title": "Sampling mode (4): active nodes are distinct for any labels", "statement": "In mode 4 the active list never contains a node twice, whatever in-range labels the example carries.", "quantifier": "all label lists", "why_tests_cant": "all label lists incl. duplicates accepted by the scanner", "anchors": ["layer/layer.go: LayerMode4", "dataset/xcrepo/xcrepo.go: parseLabels"]}
{"id": "C55", "title": "Threshold mode (1): active set", "statement": "In mode 1 the active set is exactly the ids retrieved more than 2 times over the tables, where on softmax layers each label counts l extra; each id appears once; the set does not depend on map iteration order.", "quantifier": "all tables, labels and map orders", "why_tests_cant": "map iteration order is random", "anchors": ["layer/layer.go: LayerMode1, threshold"]}
{"id": "C56", "title": "Threshold mode (1): labels are always active", "statement": "In mode 1, during training every true label of a softmax layer is active.", "quantifier": "all labels and table counts l", "why_tests_cant": "all configurations", "anchors": ["layer/layer.go: LayerMode1"]}
{"id": "C57", "title": "Random mode (2): active set", "statement": "In mode 2 on a softmax layer with distinct labels and at most floor(n*sparsity) of them, whenever sampling finishes the active list has exactly floor(n*sparsity) distinct in-range ids starting with the labels; with more labels than that it panics; at every moment of sampling an unused node exists.", "quantifier": "all random sequences", "why_tests_cant": "all random sequences, unbounded loop", "anchors": ["layer/layer.go: LayerMode2"]}
{"id": "C58", "title": "Exact top-k mode (3) works for sparse layers", "statement": "In mode 3 on a softmax layer with sparsity < 1, the query selects the floor(n*sparsity) nodes with the largest pre-activation.", "quantifier": "all layers and inputs", "why_tests_cant": "all layers", "anchors": ["layer/layer.go: LayerMode3"]}
{"id": "C59", "title": "Softmax values are normalised", "statement": "After a query on a softmax layer, the value of each active node is exp(a - m) with m = max(0, all activations), it equals the node's last activation, and the normalisation constant of the input is the sum of these values over the active list; in exact arithmetic each value is in (0,1] and the normalised values sum to less than 1.", "quantifier": "all activations and active lists", "why_tests_cant": "all inputs", "anchors": ["layer/layer.go: QueryActiveNodeAndComputeActivations", "node/node.go: ComputeExtaStatsForSoftMax"]}
{"id": "C60", "title": "Random node order stays a permutation", "statement": "After New and any number of UpdateRandomNodes calls, the padding order is a permutation of 0..n-1, so padding can reach every node.", "quantifier": "all random outcomes and call counts", "why_tests_cant": "all histories", "anchors": ["layer/layer.go: New, UpdateRandomNodes"]}
{"id": "C61", "title": "Nodes of a layer do not share parameters", "statement": "After layer.New, updating any parameter of node i never changes a parameter or training state of node j != i, although all nodes are slices of common arrays.", "quantifier": "all node pairs, indices and values", "why_tests_cant": "all pairs", "anchors": ["layer/layer.go: New"]}
{"id": "C62", "title": "Initial hash tables contain every node", "statement": "After layer.New each node id is stored in every table at the index of its weight vector unless at least 128 later nodes fell in the same cell.", "quantifier": "all sizes and random weights", "why_tests_cant": "all random outcomes", "anchors": ["layer/layer.go: New, addToHashTable"]}
{"id": "C63", "title": "LoadWeight configuration works", "statement": "network.New succeeds when LoadWeight is set.", "quantifier": "all configurations", "why_tests_cant": "all configurations", "anchors": ["network/network.go: New", "layer/layer.go: New"]}
{"id": "C64", "title": "Prediction is the arg-max and counts correctly", "statement": "PredictClass returns the number of examples whose predicted class is among their labels, where the predicted class is the first active output node with maximal activation (class 0 when no output node is active); the count is between 0 and the number of examples.", "quantifier": "all networks and example batches", "why_tests_cant": "all inputs", "anchors": ["network/network.go: PredictClass"]}
{"id": "C65", "title": "Prediction never changes parameters", "statement": "PredictClass, with any cowId, changes no weight, bias, Adam moment, gradient accumulator, hash table or hasher of the network.", "quantifier": "all networks, examples and cowIds", "why_tests_cant": "all networks and aliasing shapes", "anchors": ["network/network.go: PredictClass", "layer/layer.go", "node/node.go: GetActivation, SetlastActivation"]}
{"id": "C66", "title": "Training step is panic-free on valid input", "statement": "On a network built by network.New with Adam, ProcessInput called with the owner's cowId on at most batchSize examples with in-range features and distinct in-range labels (full layers, or mode 4) does not panic and leaves a network on which the same holds again.", "quantifier": "all networks, batches, random outcomes and histories of training and prediction calls", "why_tests_cant": "unbounded histories", "anchors": ["network/network.go: ProcessInput", "layer/layer.go", "node/node.go"]}
{"id": "C67", "title": "Adam update formula and gradient reset", "statement": "After ProcessInput with Adam, each weight w becomes w + lr*m'/(sqrt(v')+1e-8) with m' = 0.9 m + 0.1 g, v' = 0.999 v + 0.001 g*g where g is the gradient accumulated over the batch (same for biases), and every gradient accumulator is 0.", "quantifier": "all networks and batches", "why_tests_cant": "all inputs", "anchors": ["network/network.go: ProcessInput"]}
{"id": "C68", "title": "Rehash leaves the tables consistent with the weights", "statement": "After ProcessInput with rehash=true, in every layer with sparsity < 1 each node id is stored in every table at the index computed from its new weights unless at least 128 higher-numbered nodes fell in the same cell, and no other entries exist.", "quantifier": "all networks and weights", "why_tests_cant": "all weights", "anchors": ["network/network.go: ProcessInput"]}
{"id": "C69", "title": "Rebuild keeps the tables consistent with the hash functions", "statement": "After ProcessInput with rebuild=true, every node is stored where the layer's current hash function puts its weights.", "quantifier": "all (rehash, rebuild) flags", "why_tests_cant": "all flag histories", "anchors": ["network/network.go: ProcessInput", "layer/layer.go: UpdateTable", "goslide.go: trainSvmEpoch"]}
{"id": "C70", "title": "Network copy-on-write", "statement": "ProcessInput and PredictClass with a foreign cowId leave the original network unchanged.", "quantifier": "all networks and cowIds", "why_tests_cant": "aliasing", "anchors": ["network/network.go: clone", "layer/layer.go: clone"]}
{"id": "C71", "title": "Training is deterministic given the random draws", "statement": "With all layers full (sparsity 1.0), the result of ProcessInput does not depend on the random source or map iteration order at all (outside the iterations that reshuffle the padding order).", "quantifier": "all random streams", "why_tests_cant": "all random streams", "anchors": ["network/network.go: ProcessInput", "layer/layer.go"]}
{"id": "C72", "title": "Training follows the gradient of one explicit objective", "statement": "With exact real arithmetic, ReLU hidden layers and a softmax output layer, a ProcessInput step with Adam applies to every weight and bias of every layer the Adam update for the exact partial derivative, at the parameters before the step, of one function of all parameters: the sum over the batch of (mean value of the active label nodes) - (1/batchSize) log(sum over the active output nodes of exp(value - shift) + 1e-7). So back-propagation is right for that function, for any number of layers and any sets of active nodes.", "quantifier": "all networks built by New and then used by their owner, all batches, all random outcomes; no active hidden node with pre-activation exactly 0", "why_tests_cant": "derivatives in all parameters of networks of any depth", "anchors": ["network/network.go: ProcessInput", "node/node.go: ComputeExtaStatsForSoftMax, BackPropagate, BackPropagateFirstLayer, IncrementDelta"]}
{"id": "C73", "title": "Training follows the gradient of the log-likelihood", "statement": "The objective of C72 is, up to a constant, the mean over the batch of the log-likelihood of the labels (negative cross entropy), so that training maximizes the likelihood.", "quantifier": "all networks, batches and batch sizes", "why_tests_cant": "all networks and batches", "anchors": ["node/node.go: ComputeExtaStatsForSoftMax", "network/network.go: ProcessInput"]}
{"id": "C74", "title": "The whole program runs to completion and makes exactly the scheduled calls", "statement": "For a consistent configuration (positive batch size and periods, an entry of every list for every layer, hash codes that fit the tables) and well-formed data files whose examples fit the network, the program builds the network, calls ProcessInput and PredictClass exactly in the order, with the batches, iteration numbers and rehash/rebuild flags of the training schedule, and ends without a panic. With a wrong number of arguments or an unusable configuration file it exits before doing anything; with a missing list of layer parameters it never succeeds.", "quantifier": "all configurations, data files, random outcomes", "why_tests_cant": "whole runs of any length on any data, for any random outcomes", "anchors": ["goslide.go: main, trainSvmEpoch, evaluateSvm, validateArguments, loadGlobalConfiguration", "network/network.go", "layer/layer.go", "node/node.go"]}
{"id": "C75", "title": "Every hash function handles sparse examples", "statement": "Whichever of the four hash functions is configured, a network whose tables are large enough for the codes can be trained on, and predicts, examples that list only some of the features.", "quantifier": "all networks, batches and the four hash functions", "why_tests_cant": "all inputs and random permutations", "anchors": ["layer/layer.go: QueryActiveNodeAndComputeActivations", "wta_hash/wta_hash.go: GetHash", "densified_minhash/densified_minhash.go: GetHashEasy"]}
{"id": "C76", "title": "The data set reader does not depend on how the bytes arrive, and never hides a read failure", "statement": "However the underlying reader splits the file into pieces (including empty reads), the scanner delivers the same examples, errors and line numbers. If the reader fails at any byte, the examples delivered are a prefix of those of the intact file, never one made from a truncated line, and Err() is not nil once Scan has returned false.", "quantifier": "all files, all ways of splitting them, all points of failure", "why_tests_cant": "all split and crash points", "anchors": ["dataset/xcrepo/xcrepo.go: NewScanner, Scan, scanHeader, Err"]}
{"id": "C77", "title": "float64 arithmetic has the properties the code relies on", "statement": "With float64 as IEEE-754 binary64 (round to nearest even, subnormals, signed zeros, infinities, NaN): comparison is a strict weak order of the numbers; floor and ceiling of the quotient of two integers up to 2^53 are exact although the division rounds; adding or subtracting +0 changes nothing in a sum started at +0. Hence sparse and dense random projections agree bit for bit and minhash bins are in range.", "quantifier": "all float64 values, all exact results before rounding", "why_tests_cant": "2^128 pairs of operands", "anchors": ["sparse_random_projection/sparse_random_projection.go: New, GetHash, GetHashSparse", "densified_minhash/densified_minhash.go: GetMap", "wta_hash/wta_hash.go: GetHash"]}
{"id": "C78", "title": "The unit tests of the repository pass for every random stream", "statement": "Every assertion of the unit tests of the repository (bucket, fifo, lsh, wta_hash, densified_wta_hash, densified_minhash, sparse_random_projection) holds whatever numbers math/rand and maphash deliver; where a test uses ten fixed values, it holds for any ten values in the same order.", "quantifier": "all random streams, all maphash functions, all hash functions in the LSH test, all values of the shape used", "why_tests_cant": "a test run sees one random stream; an assertion can pass in one run and fail in another", "anchors": ["bucket/bucket_test.go", "bucket/fifo/fifo_test.go", "lsh/lsh_test.go", "wta_hash/wta_hash_test.go", "densified_wta_hash/densified_wta_hash_test.go", "densified_minhash/densified_minhash_test.go", "sparse_random_projection/sparse_random_projection_test.go"]}
{"id": "C79", "title": "The printed log of a whole run is determined by the counts of correct predictions", "statement": "A run of main prints the epochs, the batch numbers and the accuracies of every evaluation, in the order of the schedule; each accuracy is the quotient of the correct predictions so far and the examples evaluated so far, and the counts are those the network returned. Every accuracy printed is the quotient of two integers 0 <= a <= b with b > 0.", "quantifier": "all configurations, files, random draws and networks", "why_tests_cant": "all runs; a test checks one log", "anchors": ["goslide.go: main, trainSvmEpoch, evaluateSvm"]}
{"id": "C80", "title": "Random sampling (layer mode 2) ends exactly because the source is fair", "statement": "With layer mode 2, no more labels than nodes wanted, and a random source that delivers every residue again and again, every history of training and prediction and the whole program end without panic after finitely many draws. If labels and draws together hit fewer different nodes than wanted, no number of draws suffices: the call never returns.", "quantifier": "all fair random sources, all configurations with DWTA or SRP tables large enough, all histories; all unfair sources for the converse", "why_tests_cant": "termination with probability one cannot be observed; all random streams", "anchors": ["layer/layer.go: QueryActiveNodeAndComputeActivations", "network/network.go: ProcessInput, PredictClass"]}
{"id": "C81", "title": "The random orders are uniform and independent", "statement": "When the draws of math/rand are independent and uniform below their bounds, rand.Shuffle gives each order of n different items with probability 1/n!; the permutations of wta_hash.New are independent and uniform although each shuffles the result of the one before; and each round of sparse_random_projection.New samples every feature with probability samSize/dim.", "quantifier": "all sizes, all items, all outcomes of the draws (counted exactly), all states left by the rounds before", "why_tests_cant": "probabilities; n! orders", "anchors": ["wta_hash/wta_hash.go: New", "densified_wta_hash/densified_wta_hash.go: New", "sparse_random_projection/sparse_random_projection.go: New"]}
{"id": "C82", "title": "The codes of a random projection are unbiased", "statement": "Over the draws of New, a code of a sparse random projection is 0 at least as often as 1, exactly as often if no signed sum of the sampled coordinates vanishes, and always one of the two.", "quantifier": "all vectors, dimensions, ratios; all outcomes of the draws (counted exactly)", "why_tests_cant": "probabilities over all random projections", "anchors": ["sparse_random_projection/sparse_random_projection.go: New, GetHash"]}
{"id": "C83", "title": "The reservoir sampling of a bucket keeps a uniform sample", "statement": "With the constant fifo set to false, the next id offered to a full bucket that has seen c ids is kept with probability 128/(c+1), as a uniform sample requires.", "quantifier": "all full buckets, all counters, all ids, all outcomes of the draws", "why_tests_cant": "probabilities; the branch is never compiled in", "anchors": ["bucket/bucket.go: Add"]}
{"id": "C84", "title": "The codes of the winner-take-all hashes are distributed as intended", "statement": "For a bin that lies within one permutation: the feature with the strictly largest value is the WTA code with probability 8/dim; and all 8 DWTA codes of a vector of different values have probability 1/8.", "quantifier": "all dimensions, numbers of hashes, vectors, bins; all outcomes of the draws (counted exactly)", "why_tests_cant": "probabilities over all sequences of permutations", "anchors": ["wta_hash/wta_hash.go: New, GetHashDense", "densified_wta_hash/densified_wta_hash.go: New, GetHashEasy"]}
{"id": "C85", "title": "Steps of training are bounded by the learning rate", "statement": "With Adam, every training step (ProcessInput) moves every weight and bias by at most 7.28 times the learning rate, whatever the examples and labels are; a run of the whole program moves them by at most 7.28 * LearningRate * Epoch * (TotRecords / BatchSize).", "quantifier": "all networks made by New and all later states, all batches, all hash functions and modes, in exact arithmetic", "why_tests_cant": "a bound over all inputs, histories of moments and numbers of steps", "anchors": ["network/network.go: ProcessInput", "node/node.go: BackPropagate, BackPropagateFirstLayer", "goslide.go: main"]}
{"id": "C86", "title": "Random multipliers are uniform odd numbers", "statement": "The multipliers of new tables, of densified minhash and of densified WTA are independent and uniform on the odd numbers below 2^63.", "quantifier": "all sizes; all outcomes of the draws (counted exactly)", "why_tests_cant": "probabilities over all 2^63 values of each draw", "anchors": ["lsh/lsh.go: New, positiveOddRandomInt", "densified_minhash/densified_minhash.go: New", "densified_wta_hash/densified_wta_hash.go: New"]}
{"id": "C87", "title": "The order of the examples in a batch does not matter", "statement": "For full layers trained with Adam in exact arithmetic, the weights, biases and moments after training depend only on those at the start and on the batches as collections: not on the order of the examples in a batch, nor on the hash functions, the tables, the rehash and rebuild flags, the predictions in between or the random numbers.", "quantifier": "all networks made by New, all sequences of batches and predictions, all configurations of the hashing, all programs that finish", "why_tests_cant": "equality of two executions over all permutations of all batches", "anchors": ["network/network.go: ProcessInput", "node/node.go: BackPropagate, BackPropagateFirstLayer", "goslide.go: main"]}
{"id": "C88", "title": "Features that never occur keep their initial weights", "statement": "The weights that the first layer has for a feature do not change as long as the feature occurs in no training example. Without Adam a training step changes no weight of a feature that is not in the batch.", "quantifier": "all networks made by New, all sequences of batches and predictions, all hash functions and modes, all features; with Adam in exact arithmetic, without Adam in any arithmetic", "why_tests_cant": "all histories of training; every feature of every data set", "anchors": ["network/network.go: ProcessInput", "node/node.go: BackPropagateFirstLayer", "goslide.go: main"]}
{"id": "C89", "title": "The first training step goes uphill", "statement": "In the first training step with Adam every weight and bias x with partial derivative d of the training objective (C72) becomes x + rate * d / (|d| + sqrt(1000)*1e-8): it moves in the direction of its derivative, by less than the learning rate and by almost the learning rate if |d| >= 1. Later steps need not go uphill.", "quantifier": "all networks of ReLU layers and a softmax layer made by New, all batches, all hash functions and modes, in exact arithmetic", "why_tests_cant": "derivatives with respect to every parameter for all inputs", "anchors": ["network/network.go: ProcessInput", "node/node.go: BackPropagate, BackPropagateFirstLayer, NewNode"]}
{"id": "C90", "title": "Training on empty batches", "statement": "When the training file has fewer examples than TotRecords says, the program trains on empty batches. Without Adam such a step changes no weight and no bias. With Adam it is a step with gradients 0: the moments decay, and whatever has momentum goes on moving. A run with an empty training file ends with the initial weights.", "quantifier": "all networks made by New, all states reached by training and prediction, all hash functions and modes; for single steps in any arithmetic", "why_tests_cant": "all histories of training; all states of the moments", "anchors": ["network/network.go: ProcessInput", "node/node.go: BackPropagate", "goslide.go: main"]}
{"id": "C91", "title": "The syntax of the configuration file", "statement": "The configuration file is accepted by the parser exactly if it is a JSON text (RFC 8259, at most 10000 levels deep), each text has one value, and a configuration written as a JSON object is read back unchanged.", "quantifier": "all byte strings; all configurations whose integers fit their types, whose strings are UTF-8 and whose floats are written as the number parser reads them", "why_tests_cant": "all byte strings, all nestings and escapes", "anchors": ["configuration/configuration.go: FromJsonFile"]}
{"id": "C92", "title": "Texts of floating-point numbers", "statement": "A number in a data file or in the configuration (decimal or hexadecimal, with an exponent below 100000) is read as the nearest binary64 number, ties to even; too large numbers are errors, too small ones are zeros with the same sign; the words nan, inf and infinity are accepted in data files; everything else is an error. Every binary64 value has a text that is read back, so data files and configurations with float64 values survive writing and reading.", "quantifier": "all byte strings; all binary64 values; all data files and configurations", "why_tests_cant": "2^64 values and all texts for them", "anchors": ["dataset/xcrepo/xcrepo.go: parseFeatures", "configuration/configuration.go: FromJsonFile"]}
{"id": "C93", "title": "From the bytes of the files to the end of the program", "statement": "With a configuration and data sets written to files (JSON; header and one example per line, with LF or CRLF), the program called with the path of the configuration runs to its end in binary64, makes the training and prediction calls of C74 on exactly the examples written and prints the log of C79. If the configuration file is missing or no JSON text, the program exits at once.", "quantifier": "all configurations with the layer parameters of C74 (hash functions DWTA, SRP or minhash) and without LoadWeight or mode 2, all data sets that fit them, all random numbers, all functions exp, sqrt and pow on binary64", "why_tests_cant": "whole runs for all configurations and data sets", "anchors": ["goslide.go: main", "configuration/configuration.go: FromJsonFile", "dataset/xcrepo/xcrepo.go: Scanner"]}
{"id": "C94", "title": "A training step changes only active nodes, and these are few", "statement": "A training step changes only nodes that are active for one of its examples, and of the weights of a node only those of inputs (features, or nodes of the previous layer) that are active for an example for which the node is active too; everything else is unchanged, or with Adam takes a step with gradient 0. For an example the active nodes of a layer are distinct and, if the layer is sparse, at most max(1000, 128*L + labels) in mode 4, at most 128*L/3 + labels in mode 1 and at most floor(size*sparsity) in mode 2, whatever the size of the layer (labels count in softmax layers only). In softmax layers the labels are active in the modes 2, 3 and 4, and in mode 1 with L >= 3.", "quantifier": "all networks made by New, all states reached by training and prediction, all batches, all hash functions and modes, all random numbers, any arithmetic", "why_tests_cant": "all networks, batches and contents of the hash tables; a test would see a handful of active sets", "anchors": ["network/network.go: ProcessInput", "layer/layer.go: QueryActiveNodeAndComputeActivations", "node/node.go: BackPropagate, BackPropagateFirstLayer"]}
{"id": "C95", "title": "Every layer has its own hash function of the configured family", "statement": "Every layer of a network has a hash function of the family that the configuration names (1 winner-take-all, 2 densified winner-take-all, 3 densified minwise hashing, 4 sparse random projections), for K*L codes and for vectors with as many components as the layer has inputs, also after the hash functions have been renewed during training. With any other number no network with layers is made. With minwise hashing the layers of a new network use different seeds.", "quantifier": "all networks made by New, all states reached by training and prediction, all random numbers and seeds", "why_tests_cant": "all configurations and all histories of a network", "anchors": ["layer/layer.go: New, UpdateTable", "network/network.go: New, ProcessInput", "densified_minhash/densified_minhash.go: New", "configuration/configuration.go: HashFunction"]}
{"id": "C96", "title": "One NaN in the training data ruins a network for good", "statement": "If a feature value of a training example is NaN (the data files may contain the word nan), then after the training step all nodes that were active for the example, in all layers, have a NaN bias. A bias or weight that is NaN stays NaN in all further training, with and without Adam. If all layers are full, then all biases of the network are NaN after that step, and from then on the network predicts class 0 for every example.", "quantifier": "all networks made by New, all states, all batches with such an example at any place, all later calls, all arithmetics in which NaN propagates (binary64 among them)", "why_tests_cant": "all networks, batches and later calls", "anchors": ["network/network.go: ProcessInput, PredictClass", "node/node.go: GetActivation, BackPropagate, BackPropagateFirstLayer, ComputeExtaStatsForSoftMax", "layer/layer.go: QueryActiveNodeAndComputeActivations"]}
{"id": "C97", "title": "The driver does not overflow its 64-bit integers", "statement": "With the wrapping arithmetic of Go's 64-bit int in goslide.go (numbers of batches, iteration numbers, maintenance flags, counts of features, labels and correct predictions), the driver does exactly what it does with unbounded integers, if the batch size is not negative, the number of training batches of all epochs together is a 64-bit integer, Rehash and Rebuild are not -2^63 and the test file has fewer than 2^63 bytes. All int fields of a configuration that was read are 64-bit integers. Beyond the bound the iteration number turns negative and maintenance steps are left out.", "quantifier": "all configurations and files, all networks whose predictions are counts (that of the code among them), all states", "why_tests_cant": "no test runs 2^63 batches", "anchors": ["goslide.go: main, trainSvmEpoch, evaluateSvm, makeLayersTypes", "configuration/configuration.go: FromJsonFile"]}
{"id": "C98", "title": "Sparse random projections keep inner products on average", "statement": "Over the random choices of a round of sparse_random_projection.New (m of dim features, each with a random sign), the projection of a vector has mean 0, the product of the projections of two vectors has mean m/dim times their inner product, and the squared distance of the projections has mean m/dim times the squared distance of the vectors. The hash code of C30 is the sign of this projection. Every row of a projection comes from such a round.", "quantifier": "all dimensions, numbers of samples and vectors (exact arithmetic), all orders left by the rounds before; means over uniform independent draws", "why_tests_cant": "a statement about all outcomes of the random source", "anchors": ["sparse_random_projection/sparse_random_projection.go: New, GetHash"]}
{"id": "C99", "title": "Probability that two vectors get the same winner-take-all code", "statement": "For two dense vectors whose values are pairwise different and above -2^63, and a bin of 8 places inside one permutation, the codes of the two vectors (WTA and densified WTA) are equal with exactly the probability that both vectors have the same largest feature among 8 features chosen at random: the sum over the features f of C(n_f, 7) divided by C(dim, 8), where n_f is the number of features both vectors put below f. So the hash is sensitive to the order of the features: agreeing on more pairs never makes a collision less likely, and vectors of opposite order never collide.", "quantifier": "all dimensions, numbers of hashes, bins inside a permutation and vectors with different values; probabilities over uniform independent draws of New", "why_tests_cant": "a statement about all outcomes of the random source, and about every pair of vectors", "anchors": ["wta_hash/wta_hash.go: New, GetHashDense", "densified_wta_hash/densified_wta_hash.go: New, GetHashEasy"]}
{"id": "C100", "title": "A layer built from given arrays holds exactly these weights, biases and moments", "statement": "With LoadWeight, layer.New takes the weights, biases and (with Adam) moments from the arrays that it is given: node m has row m of the weights, bias m and row m of the moments, zero gradients and idle training states. The weights are not copied: an assignment to a weight of a node changes the given array. If they are shorter than needed, New panics. If the arrays do not overlap, using a node never changes another node. The hash tables hold the nodes where the hash function puts the given weights.", "quantifier": "all configurations with LoadWeight, sizes, node types, hash functions, arrays (also parts of longer ones) and random streams for which New returns; all uses of the nodes", "why_tests_cant": "the program never passes arrays to layer.New (network.New passes nil), so this path is never run; a wrong offset or a copy would show only after weights were loaded", "anchors": ["layer/layer.go: New", "node/node.go: Update, Weights"]}
{"id": "C101", "title": "Without Adam the biases of the first layer drift upwards", "statement": "Without Adam, BackPropagateFirstLayer adds the learning rate itself to the mirror bias (learningRate + delta instead of learningRate * delta). So after any batches of N examples the bias of a node of the first layer is its old bias plus N times the learning rate plus the plain sum of the deltas. A node that gets no gradient at all keeps its weights but its bias still rises by the learning rate for every example, and deltas that are smaller than the rate cannot stop the rise. In the other layers a zero delta changes nothing.", "quantifier": "all sequences of batches of examples, features within the weights, deltas sent by the next layer, learning rates and nodes of the first layer (exact arithmetic)", "why_tests_cant": "a slow drift looks like training in every short run; that there is no equilibrium is a statement about all sequences of examples", "anchors": ["node/node.go: BackPropagateFirstLayer, GetActivation, IncrementDelta, CopyWeightsAndBiasFromMirror, BackPropagate", "network/network.go: ProcessInput"]}
{"id": "C102", "title": "A dead node of the first layer stays dead with Adam and wakes up without it", "statement": "A node of a hidden first layer is dead for an example if its bias plus the weighted sum of the feature values is negative, so that its activation is clamped to 0. A training step on examples for which a node is dead leaves the node alone with Adam (its moments decay and its weights follow them); a node whose moments are zero therefore stays as it is for as long as it is dead for all examples, with predictions and maintenance in between. Without Adam the step keeps the weights of the node but adds the learning rate to its bias for every example for which it was active. If all nodes of the layer are computed, training on one example over and over therefore wakes the node up as soon as the number of examples times the learning rate makes up for what is missing.", "quantifier": "all networks with a hidden first layer made by New, all states reached by training and predicting, all batches, iteration numbers, maintenance flags, random streams and later calls (exact real arithmetic)", "why_tests_cant": "dead nodes are noticed, if at all, as a loss of accuracy; that they never recover (or always do) is a statement about all further training", "anchors": ["node/node.go: GetActivation, BackPropagateFirstLayer, IncrementDelta, Update, CopyWeightsAndBiasFromMirror", "network/network.go: ProcessInput", "layer/layer.go: QueryActiveNodeAndComputeActivations"]}
{"id": "C103", "title": "Every initial weight and bias is a draw of its own", "statement": "Without LoadWeight, the weights and biases of a new network, layer by layer and the weights of a layer before its biases, are exactly the first values of rand.NormFloat64, as many as there are parameters, each multiplied by 0.01; the moments are zero (with Adam) or absent. Nothing else matters: not the hash function and its random numbers, the node types, the batch size, the learning rate or the sparsity. If no two draws are equal then no two parameters are, so that no two nodes begin alike.", "quantifier": "all configurations without LoadWeight, sizes and random streams for which network.New returns", "why_tests_cant": "overlapping or repeated parts of the weight arrays would give plausible random weights; that all nodes are independent is a statement about all sizes and indices", "anchors": ["layer/layer.go: New", "network/network.go: New", "node/node.go: Update"]}
{"id": "C104", "title": "How an example is written does not matter if all layers are full", "statement": "In exact arithmetic, a network whose layers are all full learns and predicts from the value of every feature (the sum of the values given for it) and from the set and the number of the labels. Features and labels may be given in any order, a feature may be split into several parts, and features of value 0 may be left out. From the same network, training steps on two forms of the same examples, with Adam or without, lead to the same weights, biases and moments, whether or not the tables are rehashed or rebuilt, and PredictClass counts the same number of correct predictions.", "quantifier": "all networks made by New with full layers and any numbers of layers and nodes, all states reached by training and predicting, all sequences of batches, iteration numbers, maintenance flags and random streams (exact real arithmetic)", "why_tests_cant": "tests use data in one form; a pass that took only the first occurrence of a feature, or depended on its position, would look right on clean files", "anchors": ["node/node.go: GetActivation, BackPropagateFirstLayer, ComputeExtaStatsForSoftMax", "layer/layer.go: QueryActiveNodeAndComputeActivations", "network/network.go: ProcessInput, PredictClass"]}
