{
 "C01": "Double index loop in the Option monad (out-of-bounds = none); spec = sum over the list product of (time, sample) pairs. Fold lemma.",
 "C02": "Same with Python negative indexing; spec over signed delay.",
 "C03": "Triangular loop; spec = sum over index pairs i<=j; complex oriented by time.",
 "C04": "Same loops with |b-a|^2; order statements over an ordered commutative ring.",
 "C05": "Same loops with f[i]; time inversion = negated stamps.",
 "C06": "Count loops over Nat/Int; equality with number of pairs in the filtered product.",
 "C07": "Slices with Python semantics and running sums; equality with the irregular kernels on 0..N-1.",
 "C08": "Exact characterisation: in bounds iff n <= N+1 (N >= 2); counterexample beyond, so partial.",
 "C09": "DFT over the complex numbers, zero padding, `_fill_data`; orthogonality of roots of unity; cyclic delays are distinct.",
 "C10": "Same with indicator signal and negated stamps.",
 "C11": "Length formula; totals by summing counts over delays.",
 "C12": "Corollary of the specs: additive in aout and under append. Sums over the frame pairs within given blocks are the sum over the blocks, for correlation, difference, counts and sums, real and complex.",
 "C13": "Corollaries of the specs: List.Perm and shift invariance, swap.",
 "C14": "Corollary of specs and |b-a|^2 = |a|^2+|b|^2-2Re(conj a b).",
 "C15": "Corollary of specs.",
 "C16": "Corollary of specs with Nodup times; counterexample for repeated times (auto_sum).",
 "C17": "Frame x pixel kernels; projection to a pixel commutes with the fold.",
 "C18": "Model of argument inspection with errors as values; decision table.",
 "C19": "Assembly of C09/C10/C06 at the ccorr level.",
 "C20": "Parser over token lists plus string splitting; finite bit facts by decide over the whole table, lifted.",
 "C21": "Field identities on spec sums.",
 "C22": "Field identities; sums of squares are nonnegative.",
 "C23": "Field identities.",
 "C24": "Field identities; invariance under f -> f + c.",
 "C25": "Completing the square over an ordered field.",
 "C26": "Ordered field inequality.",
 "C27": "Ordered field inequality using Cauchy-Schwarz hypothesis.",
 "C28": "Decision logic model of normalize's availability checks.",
 "C29": "Index maps on lists; counterexample for mode -1.",
 "C30": "Invariant by induction over the stream.",
 "C31": "Induction over chunks on pair lists; separation hypothesis; proved for regular and per-period stamps.",
 "C32": "Fold over chunks.",
 "C33": "Loops with fuel/termination; inequalities by induction; stream consumption model.",
 "C34": "Combination of C30, C31, C38 per level.",
 "C35": "False of the code: counterexample, and exact characterisation of what both do.",
 "C36": "False of the code: counterexample and exact characterisation.",
 "C37": "False of the code: counterexample and exact statement (result equals chunk mode).",
 "C38": "Induction over levels on lists.",
 "C39": "Running sums over chunks; variance identity.",
 "C40": "Stream transformation lemma.",
 "C41": "Closed form, Finset sums.",
 "C42": "Induction over levels with the 1-2-1 filter; lengths by Nat arithmetic.",
 "C43": "List of times; Pairwise <.",
 "C44": "Proved for periods that are powers of two; counterexample otherwise.",
 "C45": "Case analysis in a linear order; in-place variant as array program.",
 "C46": "Ordered field.",
 "C47": "Running extremum by induction; `increasing` refuted (first cell never written).",
 "C48": "Loop model over an ordered field.",
 "C49": "Index functions on matrices; arithmetic modulo shape.",
 "C50": "Slice assignment model; cutoff 0 is an error (refutation of the unconditional claim). Arrays with leading axes: the entries of the matrix are arrays over the leading axes.",
 "C51": "Ordered field model of angles; boundary cases.",
 "C52": "Call/exception model; refuted for scalar k and for real (rfft2) data.",
 "C53": "Loop over an Archimedean ordered field; termination, range, congruence.",
 "C54": "Integer index model.",
 "C55": "Ordered field / Nat clamp.",
 "C56": "All outcomes: the random numbers are universally quantified.",
 "C57": "Loop model over lists.",
 "C58": "State machine over the tick stream.",
 "C59": "List model with uninitialised cells explicit.",
 "C60": "List zip model with errors at the position they occur.",
 "C61": "Two-thread transition system, all interleavings; `threaded` yields a trailing None (refuted), `play_threaded` exact.",
 "C62": "Transition system with arbitrary clock and display consumer.",
 "C63": "State machine over op sequences; suppression under nesting refuted.",
 "C64": "State machine over op sequences with arbitrary installed set.",
 "C65": "Real analysis (cos) on the pixel grid.",
 "C66": "Shape arithmetic on lists of dimensions; refuted for 1-D frames with divisors and for masks with divisors.",
 "C67": "Argument model; refuted for both functions.",
 "C68": "State machine over slider events.",
 "C69": "State machine over clicks.",
 "C70": "Field identities: normalize with scale=True is the unscaled result over the scale factor.",
 "C71": "Polar form over the reals; sign analysis of equalize_data and shift_data.",
 "C72": "Array lengths of the complex in-memory multiple tau by induction over levels.",
 "C73": "Convolution with the triangular kernel over a field; effective count = (sum w)^2-type formula; index case analysis at the borders.",
 "C74": "Closed forms of the count arrays by induction over levels; comparison with pair counts.",
 "C75": "Exact 2-D DFT by rows and columns; the three libraries as separate definitions, compared cell by cell with the Fourier sum; cropping from C50.",
 "C76": "Streams as lists; the intensity of frame 0 / of each frame divides; algebra over the reals.",
 "C77": "Orthogonality of the 2-D Fourier basis; convolution theorem.",
 "C78": "Two-dimensional sums and means over either axis; errors and rejected shapes as values.",
 "C79": "Row by row reduction of normalize_multi to normalize (C20-C28); bounds by Cauchy-Schwarz.",
 "C80": "Finite probability spaces as weighted sums; expectation of |DFT|^2 of uncorrelated noise; clamp to [0,1].",
 "C81": "Model of the filter chain from C45-C47; the chain preserves monotonicity and bounds; optimality from C25.",
 "C82": "Finite probability space and signals with constant means, variances and covariance (Spec/Process.lean). The normalisation theorems C21, C22 and C23 give each value as a formula over the pairs of samples at that delay; expectation is linear, so it passes through the mean over the pairs of times, and each pair has the covariance of its distance. The bias of the compensated norm is a counterexample: a signal constant in time.",
 "C83": "C79 gives each slow level as a formula over all pairs of frames in blocks at distance k; the expectation of each pair is the covariance of its time distance, and counting the pairs of two blocks by distance gives the triangular weights. Log averaging: C42.",
 "C84": "State machine of DataViewer; invariant over all sequences of calls (data, maps and masks belong together). The mean over the half space is carried to the full space by the map that sends a conjugated cell to its opposite; it is one-to-one because a half-open sector of at most 180 degrees never holds two opposite wave vectors (C51 for the index map, C49 for the half-space masks). Counterexample for Nyquist wave vectors evaluated from the same lemmas.",
 "C85": "The generator is modelled as the list of its yields and its end; the loop of the callers selects from it. Lemmas/IterYield shows that the yields are the arrays after each half-chunk and that the last one is the value of the model used for C31-C39. The invariant of C31 (buffers and sums after i frames), proved there by induction over the frames, is read off at the end of every chunk instead of at the end only. Selection by position: list lemmas for every interval.",
 "C86": "Induction over the steps: the coordinates are congruent modulo the box to a closed formula. Random numbers are functions on a probability space of Mathlib; the mean of a phase that is linear in independent numbers is the product of characteristic functions. A wave of the box has the same value at congruent points, so the result holds for the wrapped coordinates. Existence of such random numbers (product measure) is proved, so the hypothesis is not empty.",
 "C87": "As C86, with the uniform starting points among the independent numbers: a pair of different particles contributes a factor `∫ exp(2 pi i n u) du = 0`, a particle with itself the scattering function of C86. The double sum over particles is exchanged with the integral (bounded measurable functions).",
 "C88": "The loop with frames that may fail equals the loop of C58 when all frames can be drawn; drawing by C54, transformation by C53, coordinates by C86/C87, number of steps from the maximum of the times.",
 "C89": "`HasMean` (integrable with a known integral) is closed under linear combinations and means over lists; square integrability of the signals makes all quadratic forms of the norms integrable, and their means follow from stationarity at the frame times. The deterministic part (what is returned for given signals) is that of C82 and C83.",
 "C90": "The fields of the free walks are bounded and measurable, with mean 0 and covariance from C87 for both orders of the two times: an instance of `StationaryAt` at the simulated times. Then C89.",
 "C91": "Arrays of cells, one for each pixel; the state machine and the invariant of C84 are used for arrays of whole data tuples. The selected pixels and their conjugation flags come out of the invariant; the mean over the half space is carried to the full space for each time by the lemma of C84. C21/C22 give the curve of a pixel as a formula of its signals, and these formulas at the opposite wave vector are the conjugates; C29 gives the folding. With log-averaging (C91_log_partial, C91_log_complex_partial) and for merged multi-tau data (C91_merge_partial, C91_merge_complex_partial) the curve of a pixel is the specified log-average (IsLogAverage, IsLogMerge) of the data normalised with the given norm and scale, by C43, C44 and C79; the times depend on the shape only.",
 "C92": "The index tuple of set_indices by induction over its loop; the positions selected by an index tuple as a list without repetitions whose members are exactly the positions with the chosen indices; the mean over the list is the mean over the finite set. The state (indices set last by a successful call, data set last, times set last) by induction over the calls.",
 "C93": "The fourth moments of jointly Gaussian numbers (Isserlis) are derived from those of the normal distribution; with them the variance of any real quadratic form of a circular pair. A weighted norm is the mean over the pairs of such a form; the variances of independent pairs add up. The value returned by ccorr and normalize is that of C21 and C22, combined with the given weights (C26). Best weight: C25, with the Cauchy-Schwarz inequality for the covariance.",
 "C94": "The counts are numbers of pairs of times with a given difference (C06), that is sums of indicators over pairs of frames; the mean is the sum of the probabilities. For independent uniform draws a probability is the fraction of the pairs of outcomes with a given difference; exactly one pair of outcomes gives a delay of the window. Eq.8: the two cases of the third draw, independent of the other two.",
 "C95": "As C94, with the draws of two frames of one camera: (n-|d-gn|)/n² for frames g periods apart, summed over g. Compared entry by entry with the array of random_time_count. With a minimum time of one period: the random part never decreases (C56), and is bounded.",
 "C96": "The times are a function of the finitely many draws (a vector of pairs). For every vector C89 gives the mean over the signals if the delay occurs and C21/C22 the NaN if it does not; the mean over the draws is then a finite sum (product measure). The probability that a delay occurs is one minus that of its absence from all frames, which are independent; for one frame it is counted as in C94.",
 "C97": "Workers as lists of updates of a shared image, each update a read step and a write step; a run is any list of worker numbers. Invariants over the steps: for every pixel what was there plus at most what is done, and for pixels of one worker the exact sum. Refuted for overlapping particles by a run of four steps.",
 "C98": "Induction over the mesh loop with the drawing theorem (C54) and the transform theorem (C75) for each term; translation of a periodic image multiplies its components by a plane wave (reindexing of finite sums). Error branches outright.",
 "C99": "Refuted: in a frame of one pixel with a mesh of four points the mean is 1/4 and the result 1/2. What holds: the result is at least the mean (Cauchy-Schwarz), equal without a window for meshes of whole pixels.",
 "C100": "CPython's slice.indices modelled; the positions characterised by a predicate without clamping (order and membership) and proved equal for both signs of the step. Composition and commutation frame by frame.",
 "C101": "Row-order list of positions, strictly increasing, membership characterised.",
 "C102": "The transform theorem (C75) and a periodic shift of the rows; the fold of max characterised as a maximum. Refuted for flat frames, of which no pixel is a number.",
 "C103": "Maximum and linear arithmetic. Refuted for frames with negative values.",
 "C104": "Case distinction; the value of a switch is a relation that the code's value satisfies and that has one solution (`decided_unique`). Caching refuted for numba 1.0 and later.",
 "C105": "The four setter calls composed (C64 for each); success characterised exactly. Refuted for the file as installed where numba is limited to fewer threads than processors: the fallback calls a function that numba does not have.",
 "C106": "The loop unrolled against a search of the list of candidates. Refuted for TMP, which is not tested.",
 "C107": "The kernels of the model run over a type with rounded operations; the relation \"computed cell, exact sum, sum of moduli, number of terms\" is carried through each kernel by induction over its loops (`Tracks`), for every rounding function with relative error u; rounding to nearest with p digits is one (`C107_nearest`). The bound in terms of moduli cannot be replaced by the result itself (`C107_not_relative`).",
 "C108": "The same induction with the relation \"equal while the sum of moduli is at most B\"; needed bound shown by a counterexample beyond it (`C108_bound_needed`).",
 "C109": "With time stamps by the induction of C107. For regular data the kernels obtain a delay from the previous one by subtraction: loop invariants for the running sums give a bound by the moduli of the whole signal; the stated bound is refuted in double precision with three samples. Whole numbers exact by the same invariants. `auto_sum` halves the sums over ordered pairs; C16 (exact) turns them into sums of means over unordered pairs. Division by two is an arbitrary function that rounds half of each component (numpy divides a complex by the complex 2, whose roundings are the same up to zeros).",
 "C110": "Each kernel is written as a list of updates `out[m] += v` and this is proved to be the modelled kernel. The workers are a transition system of separate loads and stores; an invariant over the schedule relates the memory to the updates already made. With output cells that share memory an update is lost (C110_shared_lost).",
 "C111": "numpy's arithmetic of unsigned integers is modelled with its result types: modulo 2^bits for two integer frames, exact as soon as one is of floating-point numbers, conversion to dtype after the operation. The pixels that are right are characterised exactly; that all are is refuted. add undoes subtract by induction over the videos.",
 "C112": "The scale of the difference image in both versions of numpy; equality with the image of C103 by the largest pixel, refutation by 8-bit frames. OpenCV: the definition against the largest value.",
 "C113": "All kernels with time stamps and the functions around them are modelled a second time with every difference, negation and absolute value reduced to 64 bits. For stamps within 2^63 - 1 of each other no reduction changes a number, so that C01-C06 hold of them; stamps further apart refute the claim. Stacks of frames: the kernels for several pixels at once agree with the unbounded ones in the same way, and C17 gives the pixels. FFT functions (`Stamp64Fft`): the doubled number of delays does not wrap for stamps less than `2^62 - 1` apart, so each 64-bit function equals the unbounded one, and C09, C10 apply.",
 "C114": "The conversion truncates toward zero. The pairs of C01-C06 are carried over to real times; truncation of times of one sign is a fair rule by the inequalities of floor and ceiling. Times on both sides of the origin refute the claim.",
 "C115": "The state of the loops after any number of frame pairs is given by the list of what was filed in each row (induction over the pairs in the order of the loops). The tables are read off from it, the counts follow from the counting kernel of C06. Times that are zero, and delays with more frame pairs than columns, refute the counts.",
 "C116": "An array is its shape and a function of the position. A kernel run on every row (or on every plane of time x pixel) of the moved array gives at each position what it gives for that row; the vector kernels agree with the one-signal kernels column by column (C05). The rows of the moved array are the signals of the pixels, the default output array has their rows too. Argument errors come in the order of the code. The values then follow from C01 and C03 for one signal.",
 "C117": "Whether an FFT kernel raises, and the length of what it returns, depend only on the lengths and the times, so all rows succeed or raise alike; a successful run over the rows holds the result of each row. ccorr and acorr are chains of such steps: a relation between a computation on arrays and the computations on the pixels is kept by every step of the chain (the arrays moved once by ccorr have the same signals, in another place). For regular data the kernels need rows that are not too long (a condition of the theorem, as in C06); the sums added twice into one array keep its length. The values follow from C18 for one signal.",
 "C118": "Both formulas are quotients by the count; for a non-zero count they are equal by field arithmetic, for count 0 neither is a number. The mean product follows by expanding the products of shifted samples. For complex difference data every branch of normalize is followed: the step that picks the loop for the element type raises before a curve is made.",
 "C119": "Arrays are a shape and a function of the position. Broadcasting a frame over data whose last axes before the delays have the shape of the frame reads the frame at the last coordinates of the position (induction over the shape); the count, to which axes are added before the last, is read at the first coordinates. The selection of a mask is the sorted list of its positions, which is unique. Every branch of normalize preserves the number of delays, so the rows can be put together. The refutation is two wave vectors with the backgrounds 1 and 3 in one array.",
 "C120": "Arrays are a shape and a function of the position. The order of axes of merge_multilevel moves the levels before the delays; the position of an element in C order is a bijection (induction over the shape), so the reshape joins exactly the last two axes. Composition of the functions preserves 'each position by itself', from which the formulas of C43 and C44 follow for every wave vector.",
 "C121": "Composition of C119 for the linear data (no levels) and for the multilevel data (one axis of levels); the norm depends only on which parts of the linear data exist. The results of the levels at one wave vector are put together into one list.",
 "C122": "The maps and masks depend on the sizes only, so every branch before the selection is the same for the array and for each frame; the selection and the mean along one axis are computed at each position from the values of that frame. With C52 follows the formula for full-space data. The refutation: pixels of as many levels as the mask has rows, as many as it has columns.",
 "C123": "Induction over the levels with C117 for each: binning along an axis bins every signal, every level is ccorr/acorr of the binned arrays, so of the binned signals. The reshaping for threads is a change of position that keeps every signal where the computation axis is the first or the last (row-major positions), and reshape_output undoes it. The refutations follow the same proof with the positions the code really uses.",
 "C124": "Simulation: the state of the loop over frames (buffers of all levels, backgrounds, sums, data) at one pixel is the state of the one-pixel loop. Storing a frame, binning and the statistics commute with taking a pixel; each call of ccorr or acorr is C117 along the first axis with the alignment the code then computes, and keeps the lengths of the rows; the loops are inductions over frames and levels. Sizes of the buffers from the parameters show that the rows of the slow levels are not too long for their data. The reshaping is a change of position undone at the end.",
 "C125": "The selected pixels are a duplicate-free list in C order, and a pixel's place in that list is its position in the array (or frame) the functions compute on; taking pixels out reads exactly the values of that pixel. The computation on the array of selected pixels is that of C123 and C124 (frames of one axis, without reshaping). Putting back writes the row at that place for the selected pixels and NaN elsewhere, for each array, each level and the statistics.",
 "C126": "C123 (C124 for the iterative functions) gives, at every pixel, the data of that pixel alone, of which C79 (with C34 for the iterative functions) says what they normalize to; C121 says normalize_multi of the stacked arrays is, at every pixel, normalize_multi of that pixel's data. Joining them needs that all pixels have the same arrays and the same number of levels, so the arrays stack, and that the stacked array read at a pixel is the list of that pixel's levels. For the merged curve every delay is shown to occur, and C120 is applied.",
 "C127": "The kernels are polymorphic in the arithmetic, so they can be run on expressions, giving for every cell the operations of the source. By induction over the relation Fast of permitted rewritings, none changes the exact value, and none increases the sum of the moduli, the number of additions or the number of multiplications on a path; by induction over expressions, any expression runs to within ((1+u)^(additions+multiplications)-1) times its modulus. The tracking lemmas of C107 bound these numbers for what the kernels build. That running the source expressions is running the kernels of C107 is naturality of the loops.",
 "C128": "The relation Near u m x' x X (|x| ≤ X and |x'-x| ≤ ((1+u)^m-1)X) is closed under the machine's sums, differences, products and quotients with the exponent growing by one each. The bounds of C107 and C109 put the correlation, sums and squares of every delay into this relation; following the operations of each normalization function then gives the bound for its cell, and the sizes collapse to the formula over moduli because the total over the pairs is additive.",
 "C129": "`k_point_kernel` is modelled with the exact transform of `Model/Fft2.lean`; the one-hot array transforms to the plane wave (the lemma `buildKf_ok` of C77), the rest is rearranging sums and periodicity of the transform.",
 "C130": "Types are (signed, bits), pixels whole numbers, conversion keeps the low bits (`%` and `Int.bmod`). The ranges are compared for all types at once (`covers_iff`), two numbers of a type that differ by a multiple of its size are equal (`holds_unique`); the rest follows.",
 "C131": "The generator is a loop that passes on how many random numbers are used; induction over cameras and multi-frames gives the number of each pixel, division with remainder shows that no two pixels share one. Ranges and shares from the properties of the floor; loading by C59.",
 "C132": "A class is the list of what it and its parents define; lookups by class are recursive over this list (induction), lookups by object repeat with the recursion limit as fuel (induction over it). Warnings: filters, remembered and shown warnings are a state, `simplefilter` and `warn` act on it; erasing a filter that does not apply does not change the first one that does."
}