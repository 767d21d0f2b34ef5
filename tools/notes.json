{
 "C05": "False of the code: negation proved with a witness; the _partial theorem says exactly which single Retrieve answer changes.",
 "C06": "rangePow < 63 (New panics at 63).",
 "C10": "False of the code (logBinSize is floor(ln 8) = 2): negation proved; _partial theorems give the exact index and the separated codes.",
 "C11": "Includes the exact worst case and that 2k+2 bits are needed for k >= 2.",
 "C12": "False of the code: feature indices are used as digits, so an index can leave the table; _partial gives the sufficient condition.",
 "C16": "False of the code (position used for index): negations proved; _partial covers pair lists in coordinate order.",
 "C17": "numHashes < 2^32. Also proved: longer inputs panic.",
 "C21": "False of the code (position used for index): negations proved; _partial covers pair lists in coordinate order.",
 "C23": "Proved for rangePow <= 53; negation proved in binary64 for 54 to 62 (rounding) and at 63 (overflow), and from 64 on the code divides by zero.",
 "C24": "False of the code: it keeps the K smallest values (proved); negation proved.",
 "C26": "False of the code (position used for index): negation proved.",
 "C29": "False of the code: negation proved; _partial gives the exact behaviour (only left-to-right maxima are used).",
 "C34": "False for over-long lines (ErrTooLong): the line is not counted (proved); proved for every other case.",
 "C37": "Also: a period shorter than one batch divides by zero (C37_short_period_panics).",
 "C39": "Over any network with the two calls, and for the model network (C39_network).",
 "C41": "After tokenizing: the theorems hold for every tokenizer.",
 "C46": "False of the code (copyFloat64Slice returns its argument): negation proved; _partial: scalars and training states.",
 "C47": "False of the code: negations proved; _partial over all histories of cowIds that own no part of the node.",
 "C49": "False of the code (mirror weights are the weights): negation proved; _partial: exact effect.",
 "C50": "False of the code without Adam (lr + delta): negation proved; _partial: exact effect.",
 "C51": "False of the code for labels with batch size >= 2: negation proved; _partial: the other cases.",
 "C54": "False for repeated labels: negation proved; _partial: exact list.",
 "C56": "False with one or two tables: negation proved; _partial: three or more.",
 "C58": "False for every sparse softmax layer: proved; _partial: what a call that returns gives, with the exact order of the nodes.",
 "C63": "False with LoadWeight: proved for all arguments; _partial: New succeeds without LoadWeight, for DWTA, SRP and minhash parameters that fit (HashParams).",
 "C66": "False when the codes do not fit the tables: negation proved; C66_full (all layers full) and _partial (LayersOk: DWTA, SRP, minhash behind a full layer; any mode but 2) otherwise, from New on and over all histories. Mode 2 is C80.",
 "C67": "With the accumulated gradient given as the explicit sum over the batch of the back-propagated terms, and the explicit bias-corrected rate.",
 "C69": "False without rehash: negation proved; _partial: with rehash, and what happens without.",
 "C70": "False for training: negation proved; _partial: predictions and what is shared.",
 "C72": "Over the real numbers (exact arithmetic). The active sets are as in C94 (ActiveSets).",
 "C73": "False for batch sizes >= 2: negation, exact difference and unboundedness proved; _partial for batch size 1 if the labels are active nodes of the last layer (it is full, or modes 2 to 4, or mode 1 with L >= 3).",
 "C74": "Any layer mode but 2 (C80), with the hash functions and parameters for which C63 and C66 are proved (DWTA, SRP, minhash), LoadWeight false.",
 "C75": "False of the code for winner-takes-all and minhash hashing: necessary condition for success proved for all networks, and a witness; _partial for the other two hash functions, and for minhash with at least 30 features.",
 "C76": "Independence of the pieces is false in one corner (a last line of exactly 65536 bytes whose last piece comes together with io.EOF): witness, and _partial for all other inputs and for all readers that report the end separately. The part about failing readers is proved in full.",
 "C79": "For all configurations accepted by the driver and all files that hold examples; the log equation also covers runs that panic.",
 "C80": "The tables in use (they are filled in mode 2 as well) are as in C63 and C66.",
 "C81": "Counted: each event is the number of outcomes of the draws in which it happens.",
 "C82": "In exact arithmetic, for dim and ratio up to 2^53.",
 "C83": "False: the newcomer is kept with probability 1/(c+1) (C83_not_uniform); the _partial theorem is the exact count. The branch is dead code (fifo = true).",
 "C84": "For bins that do not straddle two permutations (all bins if 8 divides dim).",
 "C85": "Over the real numbers (exact arithmetic); C85_more_than_rate shows that the learning rate itself is no bound.",
 "C87": "Over the real numbers. Adam is needed (C87_sgd_false), since without it the weights change after every example.",
 "C88": "C88_sgd, C88_adam and C88_calls hold with any arithmetic; that Adam leaves a weight without gradients alone is proved for the real numbers. With Adam a weight that has momentum goes on moving in batches without the feature (C88_coasts).",
 "C89": "Over the real numbers, where no active hidden node has pre-activation 0, for the active nodes of the step (as in C72). That later steps need not go uphill is shown for the update formula (C89_later_false).",
 "C90": "C90_sgd and C90_adam hold with any arithmetic, C90_calls and C90_main over the real numbers. C90_adam_false: with Adam an empty batch does change the weights of a trained network.",
 "C91": "The parser models encoding/json as a recursive descent; the specification is a grammar of inductive relations (Spec/Json.lean), the writer for the round trip is in Spec/JsonWrite.lean. The conversion of number literals to floats is a parameter here (C92 for binary64).",
 "C92": "ParseFloat is modelled by exact rational arithmetic and one rounding; the grammar is in Spec/ParseFloat.lean. C92_huge_exponent shows that the limit on the exponent is needed: beyond it strconv ignores digits of the exponent and reads a huge number as 0.",
 "C93": "C74 without parameters for the parsers of numbers and of JSON: these are the models of C91 and C92, and floats are binary64.",
 "C94": "The active sets are those the step itself draws: C94_step says that there are sets with the properties of ActiveSets such that everything outside them is as untrained; C94_count is the bound without them.",
 "C95": "The configuration number 1 to 4 selects the hash function; a seed of maphash is modelled as an arbitrary function of strings.",
 "C96": "Arithmetic with the law class FloatNaN (every operation on a NaN gives a NaN, and a NaN is not <= anything), which binary64 satisfies if math.Exp(NaN) is NaN.",
 "C97": "The integers of the driver only (goslide.go); for loops have the number of iterations their bound gives, so that their counters cannot wrap.",
 "C98": "Exact rational arithmetic; the draws of rand.Shuffle and rand.Int are uniform and independent (means are sums over all outcomes).",
 "C99": "The draws of rand.Shuffle are uniform and independent (probabilities are counts over all outcomes). Bins that straddle two permutations are not covered.",
 "C100": "The given slices have no spare capacity beyond their length (the model panics where Go would reslice into it).",
 "C101": "Exact rational arithmetic; about the calls that one node receives (forward, deltas, back, copy from the mirror), each with the node that the call before returned.",
 "C102": "Exact real arithmetic. The sets T of C102_step are those the step itself draws, as in C94; C102_full and C102_wakes need sparsity 1 in the first layer.",
 "C103": "rand.NormFloat64 is an arbitrary stream of its own, separate from that of the integers. C103_distinct is in exact real arithmetic: in binary64 the product with 0.01 may make different draws equal.",
 "C104": "Over the real numbers; in binary64 the sums depend on the order of the features. The number of labels counts, since the softmax delta divides by it.",
 "C86": "Counted: 2 outcomes per multiplier for every odd number."
}
