{"id": "C01", "title": "SlidingWindow.transform produces the documented windows", "statement": "For every series of n samples, size >= 1 and stride >= 1: transform raises ValueError exactly when n < size; otherwise it returns exactly (n - size)//stride + 1 windows, each made of `size` consecutive samples, consecutive windows start `stride` samples apart, and the last entry of the last window is the last sample of the series.", "quantifier": "all series (any length, any sample type), all size >= 1, all stride >= 1", "why_tests_cant": "Tests fix one (n, size, stride) triple; off-by-one errors in the divmod offset show only for particular remainders.", "anchors": ["gtda/time_series/embedding.py:SlidingWindow._window_indices", "gtda/time_series/embedding.py:SlidingWindow.transform"]}
{"id": "C02", "title": "SlidingWindow.resample is aligned with transform", "statement": "For every target y as long as X, resample(y) has as many entries as transform(X) has windows and its i-th entry is y at the time of the last sample of the i-th window.", "quantifier": "all series, all size >= 1, all stride >= 1 (the property fails at size = 1, where resample returns an empty array)", "why_tests_cant": "Existing tests use size 4 stride 2; negative-step slicing with a computed stop has a boundary at size = 1 that no sample of larger sizes shows.", "anchors": ["gtda/time_series/embedding.py:SlidingWindow.resample", "gtda/time_series/embedding.py:SlidingWindow.transform"]}
{"id": "C03", "title": "SlidingWindow.slice_windows delimits the windows of transform", "statement": "For every series, row i of slice_windows(X) is a half-open interval [a, b) with X[a:b] equal to the i-th window returned by transform(X).", "quantifier": "all series, size >= 1, stride >= 1 with n >= size", "why_tests_cant": "Finite samples cannot cover all remainders and sizes.", "anchors": ["gtda/time_series/embedding.py:SlidingWindow.slice_windows"]}
{"id": "C04", "title": "Takens embedding of a univariate series has the documented points", "statement": "For every series of n samples and every time_delay, dimension, stride >= 1, SingleTakensEmbedding.transform (and TakensEmbedding on a univariate entry) raises ValueError exactly when n <= time_delay*(dimension-1); otherwise it returns (n - time_delay*(dimension-1) - 1)//stride + 1 vectors whose k-th coordinates are samples time_delay apart, consecutive vectors start stride apart; with ensure_last_value the last coordinate of the last vector is the last sample, and without it the first coordinate of the first vector is the first sample.", "quantifier": "all series, all time_delay, dimension, stride >= 1, both values of ensure_last_value", "why_tests_cant": "Index arithmetic with three parameters and a remainder; tests sample a handful of triples.", "anchors": ["gtda/time_series/_utils.py:_time_delay_embedding", "gtda/time_series/embedding.py:SingleTakensEmbedding.transform", "gtda/time_series/embedding.py:TakensEmbedding.transform"]}
{"id": "C05", "title": "SingleTakensEmbedding.resample is aligned with transform", "statement": "For every target y as long as X, resample(y) has as many entries as transform(X) has vectors and its i-th entry is y at the time of the last coordinate of the i-th vector.", "quantifier": "all series and parameters (the property fails at dimension = 1, where resample returns an empty array)", "why_tests_cant": "Boundary of negative-step slicing at dimension = 1.", "anchors": ["gtda/time_series/embedding.py:SingleTakensEmbedding.resample"]}
{"id": "C06", "title": "TakensEmbedding with flatten lays out variables then delays", "statement": "For every collection of multivariate series, with flatten=True the entry of vector p at position v*dimension + k is variable v sampled at the time of coordinate k of vector p in the univariate embedding of variable v; with flatten=False the embedding of each variable is returned separately.", "quantifier": "all 3D collections (n_samples, n_variables, n_timestamps), all parameters", "why_tests_cant": "The layout is the result of a fancy index, a transpose and a reshape, a wrong axis order is invisible on symmetric samples.", "anchors": ["gtda/time_series/_utils.py:_time_delay_embedding"]}
{"id": "C07", "title": "Optimal Takens parameters are within bounds and minimise their criteria", "statement": "takens_embedding_optimal_parameters returns time_delay in [1, max_time_delay] minimising the mutual-information score with ties broken towards the smallest, and dimension in [2, max_dimension] minimising the variation score with ties to the smallest; max_dimension = 1 (allowed by validation) always raises ValueError.", "quantifier": "all score functions, all max_time_delay >= 1, all max_dimension >= 1", "why_tests_cant": "Range and argmin claims quantify over all data sets.", "anchors": ["gtda/time_series/embedding.py:takens_embedding_optimal_parameters"]}
{"id": "C08", "title": "Labeller keeps X and labels aligned and n_steps_future apart", "statement": "For every series with n >= size and every size >= 1, n_steps_future >= 1: transform(X) and resample(X) have equal lengths; and if transform(X)[i] is sample number j of X then resample(X)[i] is func applied to the window of `size` consecutive samples ending at sample j + n_steps_future.", "quantifier": "all series, all size >= 1, all n_steps_future >= 1, all window functions func", "why_tests_cant": "Two different truncation rules (on X and on y) must agree in every relative order of size-1 and n_steps_future.", "anchors": ["gtda/time_series/target.py:Labeller.transform", "gtda/time_series/target.py:Labeller.resample"]}
{"id": "C09", "title": "Labeller class labels count the thresholds reached", "statement": "With percentiles given in ascending order, resample returns for every window the number of fitted thresholds that are <= the absolute value of func on that window, a class in {0, ..., number of percentiles}; percentiles listed out of order (accepted by validation) make resample raise or are not classified this way.", "quantifier": "all value vectors, all ascending percentile lists; counterexample for unsorted lists", "why_tests_cant": "Tests use sorted percentiles and fixed data; the one-hot/nonzero/reshape encoding is correct only if exactly one column is hot per row for every value.", "anchors": ["gtda/time_series/target.py:Labeller.fit", "gtda/time_series/target.py:Labeller.resample"]}
{"id": "C10", "title": "Resampler keeps every period-th sample of X and y alike", "statement": "Resampler.transform(X)[i] is X[i*period] and resample(y)[i] is y[i*period] for all i; both have ceil(n/period) entries (the documentation says n // period, which is false when period does not divide n).", "quantifier": "all series, all period >= 1", "why_tests_cant": "Quantifies over all lengths and periods.", "anchors": ["gtda/time_series/preprocessing.py:Resampler.transform", "gtda/time_series/preprocessing.py:Resampler.resample"]}
{"id": "C11", "title": "Stationarizer outputs determine the series and stay aligned with y", "statement": "Stationarizer.transform on n samples returns n-1 samples aligned with resample(y) = y[1:]; with operation 'return' X[i] = X[i+1]*(1 - out[i]) and with 'log-return' the sum of the outputs between i and j equals log X[j] - log X[i], whenever the inputs are nonzero (positive).", "quantifier": "all series of nonzero (positive) reals", "why_tests_cant": "Telescoping identity over unbounded lengths.", "anchors": ["gtda/time_series/preprocessing.py:Stationarizer.transform", "gtda/time_series/preprocessing.py:Stationarizer.resample"]}
{"id": "C12", "title": "PermutationEntropy depends only on order patterns and is bounded", "statement": "PermutationEntropy of an embedded series is the base-2 Shannon entropy of the relative frequencies of the argsort patterns of its rows: it is >= 0, at most log2 of the number of rows, zero when all rows have the same pattern, and unchanged by reordering the rows or by applying a strictly increasing function to the entries.", "quantifier": "all nonempty matrices of reals, all strictly increasing functions, all row permutations", "why_tests_cant": "Inequalities and invariances over infinite domains.", "anchors": ["gtda/time_series/features.py:PermutationEntropy._permutation_entropy", "gtda/time_series/features.py:PermutationEntropy._entropy"]}
{"id": "C13", "title": "PearsonDissimilarity returns a dissimilarity matrix", "statement": "For every multivariate series with non-constant variables, PearsonDissimilarity.transform returns a symmetric matrix with zero diagonal and entries in [0, 1], both with absolute_value False and True.", "quantifier": "all real multivariate series with non-constant variables", "why_tests_cant": "Cauchy-Schwarz, cannot be settled by samples.", "anchors": ["gtda/time_series/multivariate.py:PearsonDissimilarity.transform"]}
{"id": "C14", "title": "Pipeline: fit followed by transform_resample equals fit_transform_resample", "statement": "For every list of steps that each satisfy fit_transform = fit then transform (and fit_transform_resample = fit then (transform, resample)), Pipeline.fit_transform_resample(X, y) returns the same pair as fitting the pipeline on (X, y) and calling transform_resample(X, y); fit_transform(X) equals fit(X) then transform(X).", "quantifier": "all finite lists of steps (with or without resample, passthrough steps), all inputs", "why_tests_cant": "Induction over pipelines of any length.", "anchors": ["gtda/pipeline.py:Pipeline._fit", "gtda/pipeline.py:Pipeline.fit_transform", "gtda/pipeline.py:Pipeline.fit_transform_resample", "gtda/pipeline.py:Pipeline._transform_resample"]}
{"id": "C15", "title": "Pipeline routes fit parameters to the named step", "statement": "A fit parameter is split at the first double underscore of its name into the name of a step and the name of a parameter; every step is fitted with exactly the parameters addressed to it (for a step whose name does not end with an underscore: those named '<step>__<param>'); a parameter whose name has no double underscore or addresses no step, or a step that is None, raises before anything is fitted; parameters addressed to a step that is 'passthrough' have no effect.", "quantifier": "all fit-parameter dictionaries and step lists", "why_tests_cant": "String routing over arbitrary names.", "anchors": ["gtda/pipeline.py:Pipeline._fit"]}
{"id": "C16", "title": "Pipelines of resamplers keep X and y aligned", "statement": "If every step keeps the number of samples of its transformed X and resampled y equal, then transform_resample of the whole Pipeline returns Xt and yr with the same number of samples; in particular any chain of SlidingWindow (size >= 2), Resampler, Stationarizer, SingleTakensEmbedding (dimension >= 2) does.", "quantifier": "all chains of steps, all inputs on which no step raises", "why_tests_cant": "Induction over chains of unbounded length.", "anchors": ["gtda/pipeline.py:Pipeline._transform_resample", "gtda/base.py:TransformerResamplerMixin"]}
{"id": "C17", "title": "n_jobs never changes the output of chunked transformers", "statement": "For every transformer that splits the collection into even slices per job, applies a per-sample function to each slice and concatenates (images filtrations, Binarizer, Inverter, PersistenceEntropy, PermutationEntropy, BettiCurve, PersistenceLandscape, HeatKernel, Silhouette, Amplitude, NumberOfPoints...), the result is the same for every number of jobs: the slices are non-empty, contiguous, in order and partition the samples.", "quantifier": "all collections, all numbers of jobs >= 1, all per-sample functions", "why_tests_cant": "Schedules and job counts are unbounded; tests use n_jobs in {1, 2, -1}.", "anchors": ["gtda/diagrams/features.py:PersistenceEntropy.transform", "gtda/images/filtrations.py:HeightFiltration.transform", "gtda/diagrams/representations.py:BettiCurve.transform"]}
{"id": "C18", "title": "check_diagrams accepts exactly valid collections", "statement": "check_diagrams raises on every collection that is not three-dimensional with last axis of size 3, whose first diagram has a negative or non-integer homology dimension (or infinity mixed with others), or in which some point has birth > death, and returns the collection unchanged otherwise.", "quantifier": "all collections of triples", "why_tests_cant": "Decision logic over all arrays.", "anchors": ["gtda/utils/validation.py:check_diagrams"]}
{"id": "C19", "title": "Subdiagram extraction never mixes diagrams", "statement": "Extracting the points of the requested homology dimensions from a collection either raises ValueError or gives, for every diagram, exactly its own points of those dimensions in order. (False in general: with three or more diagrams whose point counts differ but add up, points are silently attributed to the wrong diagram; true for collections whose diagrams have equal counts per dimension, and for at most two diagrams.)", "quantifier": "all collections of diagrams, all lists of homology dimensions", "why_tests_cant": "A mask-and-reshape is correct only under a hidden invariant; unit tests always satisfy the invariant.", "anchors": ["gtda/diagrams/_utils.py:_subdiagrams"]}
{"id": "C20", "title": "Homology transformers output exactly the finite-replaced off-diagonal bars", "statement": "For every collection of raw backend diagrams, the output diagram of each sample contains in each requested homology dimension exactly the raw bars (in order) with infinite values replaced by infinity_values, minus those with birth >= death after replacement, minus (when reduced_homology) one H0 bar, followed only by points on the diagonal.", "quantifier": "all raw diagrams of the three backend formats, all homology dimensions, all infinity values, both values of reduced_homology", "why_tests_cant": "Quantifies over every backend output and padding pattern.", "anchors": ["gtda/homology/_utils.py:_postprocess_diagrams"]}
{"id": "C21", "title": "Homology transformers output rectangular, valid collections", "statement": "All diagrams in the output have the same number of points in every requested homology dimension (at least one), triples are grouped by homology dimension in ascending order, every birth <= death, and the collection is accepted by check_diagrams, so that all downstream diagram transformers extract subdiagrams without error.", "quantifier": "all raw diagrams, all lists of homology dimensions", "why_tests_cant": "Invariant needed by every downstream transformer for every input.", "anchors": ["gtda/homology/_utils.py:_postprocess_diagrams", "gtda/utils/validation.py:check_diagrams", "gtda/diagrams/_utils.py:_subdiagrams"]}
{"id": "C22", "title": "Filtering keeps exactly the points with lifetime above epsilon", "statement": "Filtering.transform keeps in each filtered homology dimension exactly the points whose lifetime exceeds epsilon, in their original order, and adds only points on the diagonal; points of unfiltered dimensions are unchanged.", "quantifier": "all collections with equal counts per dimension, all epsilon >= 0, all homology dimensions", "why_tests_cant": "Index computation (_multirange) and padding must be right for every count vector.", "anchors": ["gtda/diagrams/_utils.py:_filter", "gtda/diagrams/_utils.py:_multirange", "gtda/diagrams/preprocessing.py:Filtering.transform"]}
{"id": "C23", "title": "Filtering is idempotent, monotone and keeps collections valid", "statement": "Filtering twice with the same epsilon equals filtering once (as arrays); filtering with e1 then e2 keeps the same off-diagonal points as filtering with max(e1, e2); output diagrams all have the same number of points per dimension.", "quantifier": "all collections with equal counts per dimension, all epsilon >= 0", "why_tests_cant": "Algebraic law over all inputs.", "anchors": ["gtda/diagrams/_utils.py:_filter"]}
{"id": "C24", "title": "ForgetDimension forgets only the dimension", "statement": "ForgetDimension.transform keeps every birth and death in place, sets all homology dimensions to infinity, does not modify its input, and its output is accepted by check_diagrams.", "quantifier": "all valid collections of diagrams", "why_tests_cant": "Universally quantified.", "anchors": ["gtda/diagrams/preprocessing.py:ForgetDimension.transform"]}
{"id": "C25", "title": "Scaler.inverse_transform undoes transform", "statement": "For every positive fitted scale, inverse_transform(transform(X)) = X = transform(inverse_transform(X)), homology dimensions are untouched, valid diagrams stay valid and the arguments are not modified; with scale 0 (all training points on the diagonal) the round trip never gives X back.", "quantifier": "all valid collections, all scales >= 0", "why_tests_cant": "Round-trip law over all inputs.", "anchors": ["gtda/diagrams/preprocessing.py:Scaler.transform", "gtda/diagrams/preprocessing.py:Scaler.inverse_transform"]}
{"id": "C26", "title": "Scaler with bottleneck and max makes the longest lifetime 2", "statement": "With metric 'bottleneck' and function max, fit_transform makes the lifetime of the most persistent point across all diagrams and dimensions equal to 2 (documented), provided some point is off the diagonal.", "quantifier": "all valid collections with at least one off-diagonal point", "why_tests_cant": "Quantifies over all collections.", "anchors": ["gtda/diagrams/preprocessing.py:Scaler.fit", "gtda/diagrams/_metrics.py:bottleneck_amplitudes"]}
{"id": "C27", "title": "Betti curves count the living features", "statement": "The Betti curve of a diagram at a sampled parameter s is the number of points with birth <= s < death; it is unchanged by reordering points or adding diagonal points, is additive on unions, and its area-type sum over a sampling counts lifetimes.", "quantifier": "all diagrams, all samplings", "why_tests_cant": "Quantifies over all diagrams.", "anchors": ["gtda/diagrams/_metrics.py:betti_curves", "gtda/diagrams/representations.py:BettiCurve.transform"]}
{"id": "C28", "title": "Persistence landscapes are sorted tent functions", "statement": "Layer k of the landscape at s is the (k+1)-th largest value of max(0, min(s - birth, death - s)) over the points (0 beyond the number of points): layers are non-increasing in k, non-negative, 1-Lipschitz in s, do not depend on n_layers, and are unchanged by reordering points or adding diagonal points.", "quantifier": "all diagrams, samplings and numbers of layers", "why_tests_cant": "Order statistics and Lipschitz bounds over all reals.", "anchors": ["gtda/diagrams/_metrics.py:landscapes", "gtda/diagrams/representations.py:PersistenceLandscape.transform"]}
{"id": "C29", "title": "Silhouettes are weighted averages of tents", "statement": "The silhouette with power p of a diagram with an off-diagonal point is the lifetime^p-weighted average of the tent functions: it lies between 0 and the largest tent value, and is unchanged by reordering points, adding diagonal points, and by the internal rescaling used when p > 8; a diagram with only diagonal points gives 0 (false when p > 8: the result is NaN).", "quantifier": "all diagrams, samplings, powers", "why_tests_cant": "Quantifies over all reals; the p > 8 branch is numerically delicate.", "anchors": ["gtda/diagrams/_metrics.py:silhouettes", "gtda/diagrams/representations.py:Silhouette.transform"]}
{"id": "C30", "title": "Heat kernel rasters are in bounds and antisymmetric", "statement": "For every diagram the pixel coordinates computed for the heat kernel are within the n_bins x n_bins raster, each in-range off-diagonal point contributes exactly one unit of mass, and the resulting image (before the final rotation) is antisymmetric, for every linear symmetric smoothing filter; diagrams with only diagonal points give the zero image.", "quantifier": "all diagrams, all samplings with positive step, all n_bins >= 2", "why_tests_cant": "In-bounds and antisymmetry over all inputs.", "anchors": ["gtda/diagrams/_metrics.py:heats", "gtda/diagrams/_utils.py:_sample_image"]}
{"id": "C31", "title": "Persistence images ignore diagonal points", "statement": "Adding or removing diagonal (padding) points does not change a persistence image. (False in general: if no training diagram has a diagonal point in that dimension, a padding point is clipped to the smallest seen lifetime and adds mass.)", "quantifier": "all diagrams and samplings", "why_tests_cant": "Depends on a relation between fit data and transform data that tests do not vary.", "anchors": ["gtda/diagrams/_metrics.py:persistence_images", "gtda/diagrams/representations.py:PersistenceImage.transform"]}
{"id": "C32", "title": "Filtration samplings span the training data", "statement": "The samplings computed in fit have n_bins equally spaced values, starting at the smallest birth and ending at the largest death seen in the homology dimension (at the largest over all dimensions when all values are equal), so every training birth and death lies in the sampled range.", "quantifier": "all valid collections, all n_bins >= 2, all metrics", "why_tests_cant": "Quantifies over all training data.", "anchors": ["gtda/diagrams/_utils.py:_bin"]}
{"id": "C33", "title": "PairwiseDistance entries are the distances between the right diagrams", "statement": "Entry [i, j, d] of the (order=None) output is the distance between diagram i of the transformed collection and diagram j of the training collection restricted to the d-th homology dimension, whatever the number of jobs and whether or not the shortcut for equal arrays is taken.", "quantifier": "all collections, numbers of jobs, homology dimensions, and symmetric distances vanishing on the diagonal", "why_tests_cant": "Block assembly indices over all sizes and job counts.", "anchors": ["gtda/diagrams/_metrics.py:_parallel_pairwise", "gtda/diagrams/distance.py:PairwiseDistance.transform"]}
{"id": "C34", "title": "Vectorised distances are pseudometrics", "statement": "The betti, landscape, silhouette, heat and persistence-image distances with p in [1, inf] are non-negative, symmetric, zero on equal diagrams and satisfy the triangle inequality; the aggregated distance (order q) too.", "quantifier": "all diagrams, p in [1, inf]", "why_tests_cant": "Inequalities over reals.", "anchors": ["gtda/diagrams/_metrics.py:betti_distances", "gtda/diagrams/_metrics.py:landscape_distances", "gtda/diagrams/distance.py:PairwiseDistance.transform"]}
{"id": "C35", "title": "Landscape distances do not depend on how many empty layers are stored", "statement": "The truncation of the number of layers to the number of points available in the two collections does not change landscape distances or amplitudes compared with computing all n_layers layers.", "quantifier": "all collections, all n_layers >= 1, all p", "why_tests_cant": "Quantifies over sizes.", "anchors": ["gtda/diagrams/_metrics.py:landscape_distances", "gtda/diagrams/_metrics.py:landscape_amplitudes"]}
{"id": "C36", "title": "Amplitudes measure the distance to the diagonal", "statement": "Amplitudes are non-negative, homogeneous for bottleneck and wasserstein (scaling a diagram by c > 0 scales them by c), unchanged by adding diagonal points, zero when all points are diagonal; the bottleneck amplitude is half of the largest lifetime; output entry [i, d] belongs to diagram i and dimension d for every number of jobs.", "quantifier": "all diagrams, job counts", "why_tests_cant": "Quantifies over all diagrams and job counts.", "anchors": ["gtda/diagrams/_metrics.py:bottleneck_amplitudes", "gtda/diagrams/_metrics.py:wasserstein_amplitudes", "gtda/diagrams/_metrics.py:_parallel_amplitude", "gtda/diagrams/features.py:Amplitude.transform"]}
{"id": "C37", "title": "Persistence entropy is a bounded, scale-invariant entropy of lifetimes", "statement": "For a diagram with an off-diagonal point the (non-normalised) persistence entropy in a dimension is the base-2 Shannon entropy of lifetimes divided by their sum: it is between 0 and log2 of the number of off-diagonal points, unchanged by reordering, by adding diagonal points and by positive rescaling; a diagram with only diagonal points gets nan_fill_value.", "quantifier": "all diagrams", "why_tests_cant": "Real inequalities over all diagrams.", "anchors": ["gtda/diagrams/features.py:PersistenceEntropy._persistence_entropy"]}
{"id": "C38", "title": "NumberOfPoints counts off-diagonal points", "statement": "NumberOfPoints.transform returns for every diagram and dimension the number of points with nonzero lifetime, unchanged by padding, and zero exactly when the subdiagram is all diagonal; applied after Filtering it counts the points with lifetime above epsilon.", "quantifier": "all collections with equal counts per dimension", "why_tests_cant": "Quantifies over collections.", "anchors": ["gtda/diagrams/features.py:NumberOfPoints.transform"]}
{"id": "C39", "title": "ComplexPolynomial returns the coefficients of the polynomial with the diagram's roots", "statement": "The real and imaginary parts output are the leading coefficients (after the monic one) of the product of (z - root) over the off-diagonal points of the subdiagram, zero-padded or truncated to n_coefficients; they do not depend on the order of points nor on diagonal points.", "quantifier": "all diagrams, all numbers of coefficients, the three polynomial types", "why_tests_cant": "Polynomial identity for every number of roots.", "anchors": ["gtda/diagrams/features.py:ComplexPolynomial._complex_polynomial", "gtda/diagrams/_features.py"]}
{"id": "C40", "title": "Uniform one-dimensional covers cover and overlap as documented", "statement": "For every n_intervals >= 1 and overlap_frac in (0, 1), the intervals of OneDimensionalCover (uniform) cover the whole real line, neighbouring (finite) intervals have equal length and overlap in exactly the fraction overlap_frac, and if overlap_frac <= 1/2 no point lies in more than two intervals.", "quantifier": "all training data with at least two distinct values (or n_intervals = 1), all n_intervals, overlap_frac", "why_tests_cant": "Geometry of intervals for every n.", "anchors": ["gtda/mapper/cover.py:OneDimensionalCover._find_interval_limits", "gtda/mapper/cover.py:OneDimensionalCover.fit"]}
{"id": "C41", "title": "Balanced covers: fit then transform equals fit_transform on the training data", "statement": "For kind='balanced', fitting on X and transforming the same X gives the same masks as fit_transform(X), and every sample lies in at least one interval.", "quantifier": "all training data, n_intervals, overlap_frac", "why_tests_cant": "Two separate implementations (limits from ranks, and ranks against limits) must agree for all data including ties.", "anchors": ["gtda/mapper/cover.py:OneDimensionalCover._limits_from_ranks", "gtda/mapper/cover.py:OneDimensionalCover.fit_transform"]}
{"id": "C42", "title": "A cover transforms with the limits of its latest fit", "statement": "After any history of fit and fit_transform calls, transform either raises NotFittedError or uses the limits learnt in the latest of those calls. (False: for balanced covers fit_transform leaves the limits of an earlier fit in place, and transform silently uses them.)", "quantifier": "all call histories", "why_tests_cant": "Property of histories of calls.", "anchors": ["gtda/mapper/cover.py:OneDimensionalCover.fit_transform", "gtda/mapper/cover.py:OneDimensionalCover.transform", "gtda/mapper/cover.py:CubicalCover.fit_transform"]}
{"id": "C43", "title": "Covers return no empty and no duplicate sets and lose no sample", "statement": "The masks returned by fit_transform/transform have no empty column, no two equal columns, keep the order of first occurrence, and a sample is in some returned set iff it is in some interval.", "quantifier": "all boolean mask matrices", "why_tests_cant": "Quantifies over all masks.", "anchors": ["gtda/mapper/utils/_cover.py:_remove_empty_and_duplicate_intervals"]}
{"id": "C44", "title": "CubicalCover sets are products of one-dimensional intervals", "statement": "A sample belongs to a hypercube of the cover iff each of its coordinates belongs to the corresponding one-dimensional interval; every sample is in at least one returned set.", "quantifier": "all data, all numbers of features and intervals", "why_tests_cant": "Cartesian product over unbounded dimension.", "anchors": ["gtda/mapper/cover.py:CubicalCover", "gtda/mapper/cover.py:_combine_one_dim_covers"]}
{"id": "C45", "title": "ParallelClustering labels exactly the pullback sets", "statement": "labels_[i] lists, in increasing set number, one pair (set number, cluster label of sample i in that set) for each pullback set containing sample i and nothing else, independently of the parallel schedule.", "quantifier": "all masks, data, clusterers, schedules", "why_tests_cant": "Schedules and masks are unbounded.", "anchors": ["gtda/mapper/cluster.py:ParallelClustering.fit"]}
{"id": "C46", "title": "The Mapper graph is the 1-skeleton of the nerve", "statement": "Without contraction: nodes are exactly the distinct (set, cluster) pairs, node_elements of a node are exactly the samples carrying the pair, ascending; there is an edge between two nodes iff they come from different pullback sets and share at least max(1, min_intersection) samples; the graph has no loops or multiple edges; edge weight is the number of shared samples and edge_elements are exactly these samples.", "quantifier": "all refined covers, all min_intersection", "why_tests_cant": "Quantifies over all label arrays.", "anchors": ["gtda/mapper/nerve.py:Nerve.fit_transform", "gtda/mapper/nerve.py:Nerve._generate_edge_data"]}
{"id": "C47", "title": "Node contraction maps every cluster to a maximal superset cluster", "statement": "With contract_nodes=True the contraction loop terminates; every node is sent to a kept node whose elements contain its own; no kept node's elements are included in another kept node's elements.", "quantifier": "all refined covers (clusters in one pullback set disjoint)", "why_tests_cant": "Termination and maximality for every family of sets.", "anchors": ["gtda/mapper/nerve.py:_limit_mapping", "gtda/mapper/nerve.py:Nerve._generate_edge_data"]}
{"id": "C48", "title": "The contracted Mapper graph is still a simple graph with faithful attributes", "statement": "With contract_nodes=True kept nodes carry the elements of the maximal cluster and each edge's weight is the number of samples shared by its two end nodes, without loops or multiple edges. (False: attributes are combined with 'first', so a kept node whose index is larger than a contracted one carries the smaller cluster's elements; and loops and multiple edges with stale weights appear.)", "quantifier": "all refined covers", "why_tests_cant": "Tests only check that contraction removes edges.", "anchors": ["gtda/mapper/nerve.py:Nerve.fit_transform"]}
{"id": "C49", "title": "FirstSimpleGap cuts the dendrogram at the first large gap", "statement": "The number of clusters is one if no merge distance gap reaches relative_gap_size times the largest merge distance, else the number of clusters before the first such gap, capped by floor(max_fraction*(number of samples)); it is at least 1. (False: the cap can be 0 for small max_fraction, identical samples are split into as many clusters as the cap allows, and the documented max_fraction=None is rejected.)", "quantifier": "all non-decreasing merge distance vectors, relative_gap_size in (0, 1], max_fraction in (0, 1]", "why_tests_cant": "Quantifies over all dendrograms.", "anchors": ["gtda/mapper/utils/_cluster.py:_num_clusters_simple", "gtda/mapper/cluster.py:FirstSimpleGap"]}
{"id": "C50", "title": "FirstHistogramGap terminates with a valid number of clusters", "statement": "For every vector of merge distances the histogram refinement loop terminates, after at most as many refinements as there are distances, and the number of clusters is between 1 and the number of samples (when the cap is at least 1). The cut is at the first bin whose count is below freq_threshold; the documented 'no greater than' is false (freq_threshold=1 acts as 0).", "quantifier": "all merge distance vectors, freq_threshold >= 0, max_fraction, n_bins_start >= 1", "why_tests_cant": "Termination of an unbounded loop.", "anchors": ["gtda/mapper/utils/_cluster.py:_num_clusters_histogram"]}
{"id": "C51", "title": "MapperPipeline parameters: setting and reading", "statement": "set_params with any Mapper parameter names gives exactly these parameters the given values and changes nothing else; a name with a double underscore hands the rest to set_params of that object; get_mapper_params reports every Mapper parameter and the parameters of the objects among them under different names, except n_jobs, which can be set but is never reported (disagreement), and with deep=False only memory and verbose; an unknown name raises ValueError and changes nothing. The documented example set_params(clusterer___eps=0.1) raises ValueError (disagreement).", "quantifier": "all pipelines with or without graph step, all objects in them, all sets of parameter names and values, all unknown names", "why_tests_cant": "String-prefix routing over arbitrary names.", "anchors": ["gtda/mapper/pipeline.py:MapperPipeline.set_params", "gtda/mapper/pipeline.py:MapperPipeline.get_mapper_params"]}
{"id": "C52", "title": "Mapper filters: eccentricity and entropy", "statement": "Eccentricity of a row is the p-norm of its distances to all rows, at least every single distance, and for exponent inf it is the largest distance and 1-Lipschitz for the metric; Entropy of a row is base-2 Shannon entropy of the row of absolute values normalised to sum 1, between 0 and log2 of the number of non-zero entries, zero exactly for rows with one non-zero entry, invariant under rescaling and permuting the row, and NaN for rows of zeros.", "quantifier": "all data matrices", "why_tests_cant": "Real inequalities.", "anchors": ["gtda/mapper/filter.py:Eccentricity", "gtda/mapper/filter.py:Entropy"]}
{"id": "C53", "title": "Node colours are well formed", "statement": "Writing an RGB colour as hexadecimal text and reading it back is the identity, and text after the six digits is ignored. Interpolating in a colorscale gives each value, in order, the text of the rounded colour on the line between the two neighbouring colours of the scale, hence a channel between the two neighbouring channels; values below the range get the first colour, values at the maximum or above get the last colour. A list of colours is spread evenly over the scale. If the range is empty, ValueError is raised.", "quantifier": "all RGB triples, all well-formed colorscales, all finite values and ranges", "why_tests_cant": "Round trip over the whole domain.", "anchors": ["gtda/mapper/utils/_visualization.py:_hex_to_rgb", "gtda/mapper/utils/_visualization.py:_rbg_to_hex", "gtda/mapper/utils/_visualization.py:_get_colors_for_vals"]}
{"id": "C54", "title": "Mapper end to end: every sample is in the graph", "statement": "For a mapper pipeline with a uniform or balanced one-dimensional or cubical cover and any clusterer that labels every sample of each pullback set, every sample is an element of at least one node and two samples in one node share a pullback set. (False with contract_nodes=True: contraction can remove all nodes of a sample.)", "quantifier": "all data sets, filters, clusterers", "why_tests_cant": "Composition of three components for all inputs.", "anchors": ["gtda/mapper/pipeline.py:make_mapper_pipeline", "gtda/mapper/cover.py:OneDimensionalCover", "gtda/mapper/cluster.py:ParallelClustering", "gtda/mapper/nerve.py:Nerve"]}
{"id": "C55", "title": "Binarizer thresholds relative to the training maximum", "statement": "A pixel of the output is True iff the pixel exceeds threshold times the maximal training pixel (positive maximum); raising a pixel never turns it off; scaling training and test images by the same positive factor changes nothing.", "quantifier": "all greyscale collections with positive maximum, threshold in [0,1]", "why_tests_cant": "Quantifies over all images.", "anchors": ["gtda/images/preprocessing.py:Binarizer"]}
{"id": "C56", "title": "Inverter is an order-reversing involution", "statement": "For a fitted Inverter, transform(transform(X)) = X and it reverses the order of pixel values; for boolean images it is logical negation; outputs on training data are non-negative when max_value is not given.", "quantifier": "all images", "why_tests_cant": "Algebraic law over all images.", "anchors": ["gtda/images/preprocessing.py:Inverter"]}
{"id": "C57", "title": "Padder adds a border and keeps the interior", "statement": "Padder.transform enlarges each axis by twice the padding, keeps the original image in the centre and fills everything else with `value`.", "quantifier": "all images and paddings", "why_tests_cant": "Quantifies over shapes.", "anchors": ["gtda/images/preprocessing.py:Padder"]}
{"id": "C58", "title": "ImageToPointCloud lists exactly the active pixels", "statement": "The point cloud of a binary image has exactly one point per True pixel, at the pixel's coordinates (column, rows counted from the bottom), with no duplicates.", "quantifier": "all binary images", "why_tests_cant": "Bijection over all images.", "anchors": ["gtda/images/preprocessing.py:ImageToPointCloud"]}
{"id": "C59", "title": "HeightFiltration is the distance to a hyperplane on active pixels", "statement": "Every active pixel gets a value that is the (non-negative) scalar product with the normalised direction measured from the corner first met, every inactive pixel gets max_value_, and max_value_ exceeds all active values of the training shape.", "quantifier": "all binary images, all directions", "why_tests_cant": "Sign-dependent flips of coordinate axes; tests use a few directions.", "anchors": ["gtda/images/filtrations.py:HeightFiltration"]}
{"id": "C60", "title": "RadialFiltration is the distance to the centre within the radius", "statement": "Every active pixel within `radius` of the centre gets its distance to the centre; every other pixel gets max_value_, which is larger than all of these.", "quantifier": "all binary images, centres, radii, metrics", "why_tests_cant": "Inf/NaN arithmetic tricks are right only for binary inputs.", "anchors": ["gtda/images/filtrations.py:RadialFiltration"]}
{"id": "C61", "title": "DilationFiltration is the grid distance to the active region", "statement": "Each pixel gets its grid (Manhattan) distance to the nearest active pixel if this is at most n_iterations, else max_value_; active pixels get 0; neighbouring reached pixels differ by at most 1.", "quantifier": "all binary images of any shape, all n_iterations", "why_tests_cant": "Correctness of an iterative algorithm = breadth-first search, needs induction.", "anchors": ["gtda/images/_utils.py:_dilate", "gtda/images/filtrations.py:DilationFiltration"]}
{"id": "C62", "title": "ErosionFiltration is the grid distance to the inactive region", "statement": "Each pixel gets its grid distance to the nearest inactive pixel if this is at most n_iterations, else max_value_; it equals DilationFiltration of the inverted image.", "quantifier": "all binary images", "why_tests_cant": "Induction over iterations.", "anchors": ["gtda/images/_utils.py:_erode", "gtda/images/filtrations.py:ErosionFiltration"]}
{"id": "C63", "title": "SignedDistanceFiltration combines both distances", "statement": "Active pixels get (grid distance to the nearest inactive pixel) - 1, inactive pixels get minus the grid distance to the nearest active pixel, within n_iterations, and +-max_value_ beyond.", "quantifier": "all binary images", "why_tests_cant": "Value collisions (0 and 1 used both as markers and distances) make the bookkeeping delicate.", "anchors": ["gtda/images/filtrations.py:SignedDistanceFiltration"]}
{"id": "C64", "title": "DensityFiltration counts active neighbours within the radius", "statement": "Each pixel gets the number of active pixels within distance `radius`, with no wrap-around at the borders.", "quantifier": "all binary images, radii, symmetric metrics", "why_tests_cant": "Rolls of padded arrays; wrap-around shows only near borders.", "anchors": ["gtda/images/filtrations.py:DensityFiltration"]}
{"id": "C65", "title": "Image filtrations treat the images of a batch independently", "statement": "The early exit of the dilation loop, which looks at the whole batch, never changes the value computed for any single image: transform of a collection is the collection of transforms.", "quantifier": "all collections of images, all batch splits", "why_tests_cant": "Cross-image control flow; depends on batch composition and n_jobs.", "anchors": ["gtda/images/_utils.py:_dilate"]}
{"id": "C66", "title": "TransitionGraph records exactly the observed transitions", "statement": "Vertices are the distinct states; entry (i, j) is nonzero iff i != j and state j immediately follows state i somewhere; the diagonal is zero. The documented 'matrix of zeros and ones' and undirectedness are false: entries count occurrences and the matrix is directed.", "quantifier": "all sequences of states", "why_tests_cant": "Quantifies over sequences.", "anchors": ["gtda/graphs/transition.py:TransitionGraph._make_adjacency_matrix"]}
{"id": "C67", "title": "TransitionGraph passes func_params to func", "statement": "The preprocessing function is called with the keyword arguments given in func_params. (False: func_params is stored and never used.)", "quantifier": "all functions and parameters", "why_tests_cant": "Tests never pass func_params.", "anchors": ["gtda/graphs/transition.py:TransitionGraph.fit", "gtda/graphs/transition.py:TransitionGraph._make_adjacency_matrix"]}
{"id": "C68", "title": "ConsistentRescaling is symmetric and scale invariant", "statement": "For symmetric distance matrices, the result is symmetric with zero diagonal, entry (i,j) is D_ij divided by the geometric mean of the k-th neighbour distances of i and j, and multiplying D by c > 0 does not change the result. (The docstring's 'k-th largest' is false: the k-th smallest, the point itself included as number zero, is used.)", "quantifier": "all distance matrices, neighbour ranks", "why_tests_cant": "Real identities over all matrices.", "anchors": ["gtda/point_clouds/rescaling.py:ConsistentRescaling"]}
{"id": "C69", "title": "ConsecutiveRescaling rescales exactly consecutive pairs", "statement": "Entry (i, i+1) is multiplied by the factor and every other entry is unchanged; the input collection is not modified. The output is described as a distance matrix, but it is symmetric only in trivial cases because (i+1, i) is not rescaled. Arrays of integers with a floating-point factor are rejected with a TypeError.", "quantifier": "all distance matrices, factors", "why_tests_cant": "Quantifies over all matrices.", "anchors": ["gtda/point_clouds/rescaling.py:ConsecutiveRescaling"]}
{"id": "C70", "title": "GraphGeodesicDistance returns shortest walk lengths of the documented graph", "statement": "For every accepted adjacency matrix (dense, Boolean, masked, sparse) and every method, given a shortest-path engine that is correct for the method's documented domain, the result at (i, j) is the infimum of lengths of walks from i to j in the documented graph (absent edges as documented for each kind of input); the method is never one that ignores zero weights of dense matrices or is invalid for negative weights when 'auto' is requested. The documented default directed=True is false.", "quantifier": "all input kinds, weights, methods and correct engines", "why_tests_cant": "Decision logic over all inputs.", "anchors": ["gtda/graphs/geodesic_distance.py:GraphGeodesicDistance._geodesic_distance"]}
{"id": "C71", "title": "WeakAlphaPersistence weights Delaunay edges with their own length", "statement": "For every Delaunay adjacency structure, each stored edge's row index is the vertex whose neighbour list contains it and its weight is the length of that edge. (False when some point has no neighbour, as happens with duplicate points: edges are attributed to other points, or an IndexError is raised if the last point is isolated; true when every point has a neighbour.)", "quantifier": "all neighbour structures (indptr, indices)", "why_tests_cant": "Reconstruction of rows from indptr; tests use points in general position.", "anchors": ["gtda/homology/simplicial.py:WeakAlphaPersistence._weak_alpha_diagram"]}
{"id": "C72", "title": "Local homology cones off exactly the outer neighbours", "statement": "The matrix passed to the persistence transformer has one extra row and column: distances between relevant points are unchanged, the extra point is at distance 0 from the annulus points and infinity from the close points, and the matrix is symmetric when the distance is. Without close points it is the matrix of one point.", "quantifier": "all distance matrices and neighbourhood masks", "why_tests_cant": "Quantifies over matrices and masks.", "anchors": ["gtda/local_homology/simplicial.py:LocalVietorisRipsBase.transform"]}
{"id": "C73", "title": "Refitting a local homology transformer forgets earlier data", "statement": "fit(A) followed by fit(B) leaves the neighbourhood sizes in the same state as fit(B) alone. (False for KNeighborsLocalVietorisRips: neighbourhood sizes clipped to a small data set stay clipped; true for it as long as all data sets are large enough, and for RadiusLocalVietorisRips.)", "quantifier": "all histories of fit calls", "why_tests_cant": "Histories; tests fit once.", "anchors": ["gtda/local_homology/simplicial.py:KNeighborsLocalVietorisRips.fit", "gtda/local_homology/simplicial.py:LocalVietorisRipsBase.fit"]}
{"id": "C74", "title": "CollectionTransformer applies the transformer to each entry independently", "statement": "CollectionTransformer.fit_transform(X)[i] equals a fresh clone of the wrapped transformer applied to X[i] alone, in whatever order the parallel jobs run, and the wrapped transformer is not modified. (Objects with fit_transform but without get_params are documented as accepted and raise a TypeError.)", "quantifier": "all transformers and collections", "why_tests_cant": "Quantifies over arbitrary stateful transformers and schedules.", "anchors": ["gtda/metaestimators/collection_transformer.py:CollectionTransformer"]}
{"id": "C75", "title": "validate_params rejects exactly the declared violations", "statement": "For parameters described by a type and an admissible set, validate_params raises TypeError iff the first offending parameter's value is not an instance of its declared type(s), ValueError iff its (non-None) value is outside the admissible set, checks all elements of list/tuple parameters with an 'of' specification, and returns silently otherwise; parameters in `exclude` are never checked. (Nested sequences are not checked, and the `{type: int}` entries of the local homology classes, keyed by the type object instead of the string, leave those element types unchecked.)", "quantifier": "all parameter dictionaries and specifications", "why_tests_cant": "Decision logic over all Python values.", "anchors": ["gtda/utils/validation.py:validate_params", "gtda/utils/validation.py:_validate_params", "gtda/utils/validation.py:_validate_params_single"]}
{"id": "C76", "title": "Interval arithmetic and membership agree", "statement": "x in Interval iff the declared inequalities hold; is_empty iff no point belongs to it; intersects is true iff the two intervals share a point (proved when neither is empty; with an empty interval it can answer True); adding a number translates the members and multiplying by a positive number scales them (a negative factor raises ValueError, zero gives a wrong interval when an end is open or infinite, and a number on the left raises TypeError).", "quantifier": "all intervals over a dense linear order", "why_tests_cant": "Quantifies over all end points and closedness.", "anchors": ["gtda/utils/intervals.py:Interval"]}
{"id": "C77", "title": "Interval objects survive pickling", "statement": "Unpickling a pickled Interval gives back an equal Interval. (False: the reconstruction passes the keyword-only `closed` positionally and always raises TypeError.)", "quantifier": "all intervals", "why_tests_cant": "Never exercised by tests.", "anchors": ["gtda/utils/intervals.py:Interval.__reduce__", "gtda/utils/intervals.py:Interval.__init__"]}
{"id": "C78", "title": "Derivative computes iterated forward differences", "statement": "Derivative(order=k) maps every curve with more than k bins to the k-th forward difference (n_bins - k values), is linear, and composes: order j after order k is order j+k; it raises ValueError when order >= n_bins.", "quantifier": "all curves, all orders", "why_tests_cant": "Algebraic laws for every order.", "anchors": ["gtda/curves/preprocessing.py:Derivative"]}
{"id": "C79", "title": "StandardFeatures orders features by channel", "statement": "Row i of the output is the concatenation over channels, in order, of the outputs of the channel functions on curve i, channels with None are skipped, independently of the parallel schedule (for functions whose output length does not depend on the curve; otherwise rows mix samples); the documented string 'identity' inside a list or tuple always raises TypeError, as do the documented weights=None, and None inside function_params raises AttributeError.", "quantifier": "all curves, functions, schedules", "why_tests_cant": "Quantifies over arbitrary functions and schedules.", "anchors": ["gtda/curves/features.py:StandardFeatures"]}
{"id": "C80", "title": "FlagserPersistence aligns diagrams with homology dimensions", "statement": "Entry d of the list built from the backend output is the diagram of homology dimension d for every requested dimension, with empty diagrams for dimensions that the backend does not return.", "quantifier": "all backend outputs and requested dimensions", "why_tests_cant": "Quantifies over all backend outputs.", "anchors": ["gtda/homology/simplicial.py:FlagserPersistence._flagser_diagram"]}
{"id": "C81", "title": "Normalised persistence entropy", "statement": "With normalize=True, PersistenceEntropy outputs the entropy of the relative lifetimes divided by log2 of the total lifetime, for every diagram with an off-diagonal point whose total lifetime is not 1; it does not depend on the order of points nor on diagonal points. If the total lifetime is exactly 1 the division by zero surfaces as nan_fill_value (single point) or as the largest float.", "quantifier": "all diagrams, all numbers of jobs", "why_tests_cant": "Quantifies over all diagrams; the exceptional total lifetime has measure zero.", "anchors": ["gtda/diagrams/features.py:PersistenceEntropy._persistence_entropy"]}
{"id": "C82", "title": "Pipelines of time-series steps do not look ahead", "statement": "In a Pipeline of any number of SlidingWindow (size >= 2), Resampler, Stationarizer and SingleTakensEmbedding (dimension >= 2, or parameters found by search) steps, transform_resample on a series of length n returns, for some increasing times t_0 < t_1 < ... < n that depend only on n, one sample and one target per time; the target of sample i is the input target of time t_i, and sample i does not change when the input data after time t_i are changed.", "quantifier": "all chains of steps, all hyperparameters, all fits, all series and targets on which no step raises", "why_tests_cant": "Leakage of future data into samples has to be excluded for every chain, every parameter and every perturbation of the future.", "anchors": ["gtda/pipeline.py:Pipeline._transform_resample", "gtda/time_series/embedding.py:SlidingWindow", "gtda/time_series/embedding.py:SingleTakensEmbedding", "gtda/time_series/preprocessing.py:Resampler", "gtda/time_series/preprocessing.py:Stationarizer"]}
{"id": "C83", "title": "Pipeline.resample returns the targets of transform_resample", "statement": "Pipeline.resample(y), as documented, returns the targets that transform_resample(X, y) returns.", "quantifier": "all pipelines of transformer-resamplers, all inputs", "why_tests_cant": "Agreement of two methods for chains of any length; it fails because the documented argument is bound to an unused parameter.", "anchors": ["gtda/pipeline.py:Pipeline.resample", "gtda/pipeline.py:Pipeline._resample"]}
{"id": "C84", "title": "Pipeline.inverse_transform undoes transform", "statement": "If every step has an inverse_transform that undoes its transform, then Pipeline.inverse_transform undoes Pipeline.transform.", "quantifier": "all pipelines of invertible steps, all inputs", "why_tests_cant": "Induction over pipelines of any length; it fails for steps, such as Scaler, whose inverse_transform takes one argument.", "anchors": ["gtda/pipeline.py:Pipeline.inverse_transform", "gtda/pipeline.py:Pipeline._inverse_transform", "gtda/diagrams/preprocessing.py:Scaler.inverse_transform"]}
{"id": "C85", "title": "Projection and callables act row by row", "statement": "Projection returns exactly the requested columns in the requested order; transformer_from_callable_on_rows applies any callable on 1D arrays to each row separately. (The latter is false for callables that have a parameter axis but no parameter keepdims, which always raise TypeError.)", "quantifier": "all matrices, all column lists, all callables", "why_tests_cant": "Quantifies over all callables and shapes.", "anchors": ["gtda/mapper/filter.py:Projection", "gtda/mapper/utils/pipeline.py:transformer_from_callable_on_rows"]}
{"id": "C86", "title": "Geodesic distances form an extended pseudometric", "statement": "For nonnegative weights the distances returned by GraphGeodesicDistance satisfy d(i,i)=0 and the triangle inequality (with infinity for unreachable pairs); for undirected use they are symmetric.", "quantifier": "all graphs with nonnegative weights, all methods", "why_tests_cant": "Quantifies over all graphs and triples of vertices.", "anchors": ["gtda/graphs/geodesic_distance.py:GraphGeodesicDistance.transform"]}
{"id": "C87", "title": "Changing the neighbourhood parameters of a local homology transformer affects later fits", "statement": "After set_params(n_neighbors=...) or set_params(radii=...), as done by grid search and cloning with parameters, the next fit uses the new values. (False: the values given to the constructor, sorted and possibly clipped, are used for ever.)", "quantifier": "all histories of constructor, set_params and fit calls", "why_tests_cant": "Histories of calls; unit tests construct a new object each time.", "anchors": ["gtda/local_homology/simplicial.py:KNeighborsLocalVietorisRips.__init__", "gtda/local_homology/simplicial.py:RadiusLocalVietorisRips.__init__", "gtda/local_homology/simplicial.py:LocalVietorisRipsBase.fit"]}
{"id": "C88", "title": "Persistence diagrams do not depend on the batch or on orderings", "statement": "For all persistent homology transformers: the order of homology_dimensions is irrelevant; reordering the samples reorders the output rows in the same way, for every number of jobs and task schedule; and the off-diagonal points of a sample's diagram are the same, in the same order, whether it is transformed in a batch or alone. (A dimension listed twice is not ignored: its features are reported twice; an empty list of dimensions passes validation and raises IndexError.)", "quantifier": "all engine outputs, batches, permutations, schedules, dimension lists", "why_tests_cant": "Quantifies over all batches, permutations and schedules.", "anchors": ["gtda/homology/simplicial.py:VietorisRipsPersistence.transform", "gtda/homology/simplicial.py:FlagserPersistence.transform", "gtda/homology/cubical.py:CubicalPersistence.transform", "gtda/homology/_utils.py:_postprocess_diagrams"]}
{"id": "C89", "title": "Effective parameters of weighted Rips filtrations", "statement": "WeightedRipsPersistence.fit uses, for every parameter of the weighted filtration, the value given in weight_params or else its documented default (p=1; with DTM weights n_neighbors=3, r=2), fails for unknown names and for values outside the documented ranges, and raises ValueError for every string of weights other than 'DTM'.", "quantifier": "all weight_params dictionaries and weights", "why_tests_cant": "Decision logic over all dictionaries and values.", "anchors": ["gtda/homology/simplicial.py:WeightedRipsPersistence.fit", "gtda/homology/simplicial.py:_AVAILABLE_RIPS_WEIGHTS"]}
{"id": "C90", "title": "CubicalPersistence passes every pixel to the engine and reports its bars", "statement": "The engine receives the shape and every pixel exactly once, at its column-major position; the output has exactly the bars reported by the engine for the requested dimensions; bars that never die get infinity_values or, by default, the largest pixel value of the images passed to fit; periodicity is passed on iff some axis is periodic. (The documented attribute periodic_dimensions_ has n_samples - 1 entries instead of one per image dimension when no axis is periodic.)", "quantifier": "all images of all dimensions and shapes, all engines", "why_tests_cant": "Quantifies over all shapes and dimensions.", "anchors": ["gtda/homology/cubical.py:CubicalPersistence._gudhi_diagram", "gtda/homology/cubical.py:CubicalPersistence.fit"]}
{"id": "C91", "title": "Reduced homology discards one earliest born essential class", "statement": "With reduced_homology=True, exactly the earliest-born triple in homology dimension 0 which has infinite death is discarded from each diagram. (True only if the engine lists that class at the end, respectively the beginning, of its diagram: the code discards by position.)", "quantifier": "all engine outputs", "why_tests_cant": "Quantifies over all engine outputs.", "anchors": ["gtda/homology/_utils.py:_postprocess_diagrams", "gtda/homology/simplicial.py:FlagserPersistence"]}
{"id": "C92", "title": "Hover label colours of 3D plots", "statement": "In a 3D static Mapper plot every colour column gets hover label colours relative to its own range, for the initial column and for every entry of the colour menu; if the first column has the same value in all nodes the labels are white. A later column with the same value in all nodes should not prevent plotting either, but it raises ValueError.", "quantifier": "all colorscales, all numbers of colour columns, all node values", "why_tests_cant": "The failure depends on node statistics coinciding, which depends on the data and on the Mapper graph.", "anchors": ["gtda/mapper/utils/_visualization.py:_produce_static_figure", "gtda/mapper/utils/_visualization.py:_get_column_color_buttons", "gtda/mapper/visualization.py:plot_static_mapper_graph"]}
{"id": "C93", "title": "Node statistics, sizes and colour menu", "statement": "The value of a node in a colour column is the node colour statistic applied to the entries of that column in exactly the rows which the node represents; its size is the number of these rows and the size reference is twice the largest size over the square of node_scale. Choosing another entry of the colour menu shows the values of that column and the hover texts the plot would have if that column came first. More names than columns raise IndexError.", "quantifier": "all colour tables, statistics, Mapper nodes, column names", "why_tests_cant": "Alignment of nodes, columns and texts for every table.", "anchors": ["gtda/mapper/utils/_visualization.py:_get_node_statistics", "gtda/mapper/utils/_visualization.py:_get_node_text", "gtda/mapper/utils/_visualization.py:_get_column_color_buttons", "gtda/mapper/utils/_visualization.py:_set_node_sizeref"]}
{"id": "C94", "title": "Rounding of node statistics to significant figures", "statement": "Rounding a nonzero statistic to n >= 1 significant figures gives a whole multiple of the unit of its n-th figure, at most half that unit and at most the fraction 5/10^n of the number away, with the same sign and order of magnitude (up to the next power of ten); numbers that already have n figures, zero, and the case n = None are left unchanged.", "quantifier": "all nonzero numbers, all n >= 1", "why_tests_cant": "Holds for every magnitude and every number of figures.", "anchors": ["gtda/mapper/utils/_visualization.py:_round_to_n_sig_figs"]}
{"id": "C95", "title": "make_mapper_pipeline against set_params", "statement": "make_mapper_pipeline builds a pipeline which reports the given values, with defaults for the objects given as None and a wrapper for a filter that is not a transformer. Changing all parameters by set_params gives the pipeline that make_mapper_pipeline builds from the new values, if no value asks for a default, the filter is a transformer and verbose does not change; otherwise it does not: set_params stores a callable or None as it is, and verbose of the inner pipeline keeps its old value (disagreements).", "quantifier": "all arguments, defaults, wrappers and earlier arguments", "why_tests_cant": "Equality of two ways to the same configuration over arbitrary nested objects.", "anchors": ["gtda/mapper/pipeline.py:make_mapper_pipeline", "gtda/mapper/pipeline.py:MapperPipeline.set_params"]}
{"id": "C96", "title": "Which collections of point clouds are accepted", "statement": "check_point_clouds accepts a non-empty list exactly if each entry is two-dimensional with at least one row and column, has no NaN (and no infinite entry unless distance matrices are expected or force_all_finite=False), and is square if dense distance matrices are expected; otherwise it raises a ValueError wherever the bad entries stand. Entries of one shape are stacked in order, any other list is returned as it is. A 3D array is accepted under the analogous conditions and returned as it is. A warning is given exactly if everything is square and no distance matrices are expected. An array and the list of its entries are treated alike if the entries have rows and columns. (Disagreements: point clouds without points are accepted in an array and refused in a list; an empty list is an IndexError.)", "quantifier": "all arrays and lists of dense or sparse matrices, with or without infinities and NaN, all settings of the checks", "why_tests_cant": "Acceptance must be decided for every shape and position of a bad entry.", "anchors": ["gtda/utils/validation.py:check_point_clouds", "gtda/utils/validation.py:_check_array_mod"]}
{"id": "C97", "title": "Which collections of arrays are accepted", "statement": "check_collection accepts a list exactly if each entry has at least one axis, is not empty along the first axis (nor the second of two) and has no NaN, nor an infinite entry if finiteness is required; a list stays a list with unchanged entries. An array needs at least two axes and the same conditions and is returned as it is. Everything else is a ValueError, except that an array without axes in a list is a TypeError.", "quantifier": "all arrays and lists of arrays of any dimensions, all settings of the checks", "why_tests_cant": "Acceptance must be decided for every shape and position of a bad entry.", "anchors": ["gtda/utils/validation.py:check_collection", "gtda/utils/validation.py:_check_array_mod"]}
{"id": "C98", "title": "Bottleneck and Wasserstein distances are metrics and stable", "statement": "With an exact distance engine, PairwiseDistance with metric 'bottleneck' or 'wasserstein' (p >= 1) outputs, in each homology dimension, the least norm of the prices of a matching of the two diagrams, although diagonal points are removed beforehand. This is a pseudometric which is zero exactly if the diagrams have the same points off the diagonal. Moving every point by at most eps changes no bottleneck distance by more than 2 eps. With an engine of relative error delta < 1 the output has this relative error, still recognises equal diagrams, and satisfies symmetry and the triangle inequality up to the factor (1 + delta) / (1 - delta).", "quantifier": "all collections of diagrams, engines meeting the contract, numbers of jobs, p in [1, inf], delta, perturbations", "why_tests_cant": "Metric axioms and stability range over all pairs and triples of diagrams of any size and all perturbations.", "anchors": ["gtda/diagrams/_metrics.py:bottleneck_distances", "gtda/diagrams/_metrics.py:wasserstein_distances", "gtda/diagrams/_metrics.py:_parallel_pairwise", "gtda/diagrams/distance.py:PairwiseDistance.transform"]}
{"id": "C99", "title": "Amplitudes are distances to the empty diagram", "statement": "Bottleneck and Wasserstein amplitudes equal the bottleneck and Wasserstein distances to the diagram without points; hence the amplitudes of two diagrams differ at most by the distance which PairwiseDistance outputs for them.", "quantifier": "all collections of diagrams, numbers of jobs, p", "why_tests_cant": "Two differently computed outputs must agree for every diagram.", "anchors": ["gtda/diagrams/_metrics.py:bottleneck_amplitudes", "gtda/diagrams/_metrics.py:wasserstein_amplitudes", "gtda/diagrams/_metrics.py:_parallel_amplitude"]}
{"id": "C100", "title": "Landscapes are stable", "statement": "At every layer and sampled value the outputs of PersistenceLandscape for two diagrams differ at most by the bottleneck distance of the diagrams in that homology dimension; entries of PairwiseDistance with metric 'landscape' and p = inf are at most the entries with metric 'bottleneck'.", "quantifier": "all collections of diagrams, samplings, numbers of layers and jobs", "why_tests_cant": "An inequality between outputs of two algorithms for all pairs of diagrams.", "anchors": ["gtda/diagrams/_metrics.py:landscapes", "gtda/diagrams/_metrics.py:landscape_distances", "gtda/diagrams/representations.py:PersistenceLandscape.transform"]}
{"id": "C101", "title": "Plots of persistence diagrams show the diagram", "statement": "plot_diagram draws, for each requested homology dimension in order (by default each dimension present), one scatter with exactly the points of that dimension off the diagonal, in order, with immortal classes at a common finite height; every hover text gives the multiplicity of its point; everything drawn lies strictly inside the axes, immortal classes above all finite points and on the line labelled by them. ForgetDimension.plot draws a single scatter. The axes part is false when all classes never die and are born together.", "quantifier": "all diagrams, requested dimensions", "why_tests_cant": "Tests only check that plotting does not raise; the figure must be faithful for every diagram.", "anchors": ["gtda/plotting/persistence_diagrams.py:plot_diagram", "gtda/diagrams/preprocessing.py:ForgetDimension.plot"]}
{"id": "C102", "title": "transform_plot shows what plot shows", "statement": "transform_plot(X, sample) returns the transform of that sample alone and shows the same figure as plot(transform(X), sample), also for persistent homology transformers whose padding depends on the other samples; negative samples other than -1 count from the end. For sample=-1 an empty slice is transformed.", "quantifier": "all collections, samples, transformers working sample by sample", "why_tests_cant": "The agreement of two paths must hold for every collection and index.", "anchors": ["gtda/base.py:PlotterMixin.transform_plot", "gtda/homology/simplicial.py:VietorisRipsPersistence.plot"]}
{"id": "C103", "title": "Plots of curves and landscapes match names and data", "statement": "BettiCurve.plot, Silhouette.plot and PersistenceLandscape.plot draw each requested homology dimension once, in order, under its own name, with its own sampled values and its own rows (and layers); unknown dimensions are refused with ValueError. Composed with transform, the line named after a dimension has at each sampled value the number of intervals of that dimension alive there.", "quantifier": "all fitted dimensions, requested dimensions, samplings, collections", "why_tests_cant": "Mislabelled curves raise no error; alignment must hold for every choice of dimensions.", "anchors": ["gtda/diagrams/representations.py:BettiCurve.plot", "gtda/diagrams/representations.py:PersistenceLandscape.plot", "gtda/diagrams/representations.py:Silhouette.plot"]}
{"id": "C104", "title": "plot_betti_curves and plot_betti_surfaces match names and data", "statement": "Each requested homology dimension is drawn with its own sampled values and its own curve, surfaces with one row per sample. Holds when the dimensions are 0, ..., n-1; for other dimensions rows are taken by the number of the dimension (wrong curves or IndexError), and the default samplings=None of plot_betti_surfaces raises TypeError.", "quantifier": "all Betti curves, samplings, requested dimensions", "why_tests_cant": "Depends on the homology dimensions present; mislabelled curves raise no error.", "anchors": ["gtda/plotting/diagram_representations.py:plot_betti_curves", "gtda/plotting/diagram_representations.py:plot_betti_surfaces"]}
{"id": "C105", "title": "Derivative.plot draws the requested channels", "statement": "Derivative.plot draws each requested channel under its own name with its own values over as many abscissae. Without channels each row is drawn under its name; with chosen channels the wrong rows are drawn, and the number of abscissae is the number of channels instead of values.", "quantifier": "all collections of curves, chosen channels", "why_tests_cant": "The default path looks right; the alignment of labels and data must hold for every choice.", "anchors": ["gtda/curves/preprocessing.py:Derivative.plot"]}
{"id": "C106", "title": "Heat maps are drawn at their coordinates", "statement": "HeatKernel.plot and PersistenceImage.plot show, at abscissa x and ordinate y of the drawn axes, the value of the smoothed raster at birth x and death y (persistence y), in the requested homology dimension.", "quantifier": "all collections, samplings, numbers of bins and jobs, smoothing functions", "why_tests_cant": "A transposed or flipped image raises no error; orientation must be right for every diagram.", "anchors": ["gtda/diagrams/representations.py:HeatKernel.plot", "gtda/diagrams/representations.py:PersistenceImage.plot", "gtda/plotting/images.py:plot_heatmap"]}
{"id": "C107", "title": "Plots of point clouds show every point", "statement": "plot_point_cloud draws every point once, in order, at its first two or three coordinates, coloured by position or height; requests for more dimensions than coordinates or other than 2 and 3 raise ValueError. A cloud with one coordinate and no chosen dimension ends in UnboundLocalError.", "quantifier": "all point clouds, chosen dimensions", "why_tests_cant": "Decision logic over all numbers of coordinates and choices.", "anchors": ["gtda/plotting/point_clouds.py:plot_point_cloud"]}
{"id": "C108", "title": "Interactive Mapper plots follow the widgets", "statement": "After any sequence of values entered in the widgets of an interactive Mapper plot: the parameters of pipeline_ which have a widget have the values last entered, every other parameter its initial value; if the parameters are reported valid, then graph_, node_summaries_ and figure_ are those of a new plot of pipeline_; if the pipeline cannot be fitted, this is reported and graph_, node_summaries_ and figure_ remain; with clone_pipeline=True the caller's pipeline is not changed. (False if the graph can be computed but not drawn, for 3D plots if all nodes have the same colour, and for trace data replaced by plotly_params.)", "quantifier": "for every Mapper pipeline, every engine, every sequence of widget changes including failing ones", "why_tests_cant": "the state depends on the whole history of entered values and on where an update fails; tests enter one or two values", "anchors": ["gtda/mapper/visualization.py: MapperInteractivePlotter.plot, on_parameter_change, get_widgets_per_param, observe_widgets"]}
{"id": "C109", "title": "kNN graphs: exactly n_neighbors nearest other points", "statement": "KNeighborsGraph maps each point cloud of a collection to its own graph, in order: every point has edges to exactly n_neighbors other points, never to itself, no point left out is nearer than one that is taken, and the stored values are 1 (connectivity) or the distances, duplicates getting stored zeros. Values of n_neighbors that are not positive or not less than the number of points raise ValueError. A list of clouds and the stacked array give the same result, and neither the data given to fit, the other clouds nor n_jobs matter. With metric='precomputed' this needs matrices whose diagonal entries are the least of their rows; otherwise the nearest point may be dropped.", "quantifier": "all point clouds and distance matrices, all metrics, numbers of neighbours, correct neighbour searches (any choice among equal distances), all collections and execution orders", "why_tests_cant": "Ties, duplicates and the removal of the point itself interact for configurations a test suite only samples; independence of schedule and of the other samples ranges over all collections.", "anchors": ["gtda/graphs/kneighbors.py:KNeighborsGraph.fit", "gtda/graphs/kneighbors.py:KNeighborsGraph.transform", "gtda/utils/validation.py:check_point_clouds"]}
{"id": "C110", "title": "Search of Takens parameters: scores, invariance, failure", "statement": "takens_embedding_optimal_parameters(X, max_time_delay, max_dimension, stride) chooses the first time delay with the least mutual information between the series and its shift (100 bins), and for it the first dimension between 2 and max_dimension with the least relative variation of the numbers of false nearest neighbours in the dimensions d, d + 1, d + 2. It raises ValueError exactly if the series has fewer than (max_dimension + 1) * time_delay + 1 + stride values for the chosen time delay. The numbers of false neighbours do not depend on the unit (any non-zero factor) or the origin of the series, and neither does the choice of parameters (positive factors). A false neighbour is a pair of nearest embedded points in dimension d whose next coordinates are more than ten times as far apart as the points.", "quantifier": "all series of numbers, time delays, dimensions, strides, factors and shifts, and all correct searches of nearest neighbours", "why_tests_cant": "Invariance is a statement about all series and factors; a test can only compare a few runs. The count mixes shifted indices of series and neighbours, and tests with one recorded number per series cannot show that it counts what its name says.", "anchors": ["gtda/time_series/embedding.py:takens_embedding_optimal_parameters", "gtda/time_series/_utils.py:_mutual_information", "gtda/time_series/_utils.py:_false_nearest_neighbors"]}
{"id": "C111", "title": "Colour arguments of static Mapper plots", "statement": "plot_static_mapper_graph takes the features of interest from color_data (0, 1, 2, … if None) as color_features says: all columns if None, the result of fit_transform, of transform or of the call of an object that has them (in this order), or the column or columns with the given labels or indices. Each node is coloured by node_color_statistic of the values of the first feature in its rows. With several features there is a menu with exactly one entry per feature, in order, labelled by the label of its column, showing the statistics of that feature and the hover texts with these values. If node_color_statistic is an array, it is used directly and color_features is ignored. Wrong lengths, statistics that are neither callable nor arrays, color_features that are arrays and columns of a series raise ValueError.", "quantifier": "all Mapper graphs, colour data (arrays with one or two axes, dataframes, series), colour features, statistics, layouts and ways of printing numbers without blanks", "why_tests_cant": "The combinations of data containers, kinds of colour features and statistics are many and their sizes unbounded; tests only check that some of them plot without an exception.", "anchors": ["gtda/mapper/utils/_visualization.py:_infer_color_features_kind", "gtda/mapper/utils/_visualization.py:_validate_color_kwargs", "gtda/mapper/utils/_visualization.py:_calculate_graph_data", "gtda/mapper/visualization.py:plot_static_mapper_graph"]}
{"id": "C112", "title": "Nodes and lines of Mapper plots", "statement": "In a plot of a Mapper graph each node is drawn at its position in the layout with the number of its rows as size, and the lines drawn are exactly the lines between the positions of the two end points of each edge, one per edge, in two and three dimensions; other values of layout_dim are rejected.", "quantifier": "all Mapper graphs, layouts, colours and sizes", "why_tests_cant": "The coordinates of the lines are kept in separate lists with separators; that they fit together for every graph and that no line joins two different edges is a statement about all graphs.", "anchors": ["gtda/mapper/utils/_visualization.py:_calculate_graph_data"]}
{"id": "C113", "title": "Vectorizers as fitted objects", "statement": "A BettiCurve, PersistenceLandscape, Silhouette, HeatKernel or PersistenceImage fitted on diagrams with equal numbers of points per dimension samples, in each homology dimension of the first training diagram, n_bins equally spaced values from the smallest birth to the largest death (for images: births and lifetimes) of the training diagrams. On every valid collection, also another one, and for every number of jobs, transform returns for each diagram and each of these dimensions the curve, the layers, or the image of exactly its points on this grid. The result depends only on the last fit, the parameters at that time and the current parameters: n_layers, sigma and power changed after fit act as if set before, a new weight_function is ignored, a new n_bins is ignored or raises ValueError. A failed fit leaves the object as it was. n_bins=1 is a valid value.", "quantifier": "all training and other collections of diagrams, parameters, numbers of jobs, weight functions and sequences of calls of fit and set_params, including failing ones", "why_tests_cant": "The law joins what fit has stored with what transform computes, over all pairs of collections and all histories; tests fit and transform the same few diagrams once.", "anchors": ["gtda/diagrams/representations.py:BettiCurve", "gtda/diagrams/representations.py:PersistenceLandscape", "gtda/diagrams/representations.py:HeatKernel", "gtda/diagrams/representations.py:PersistenceImage", "gtda/diagrams/representations.py:Silhouette", "gtda/diagrams/_utils.py:_bin"]}
{"id": "C114", "title": "PairwiseDistance and Amplitude as fitted objects", "statement": "fit of PairwiseDistance and Amplitude accepts exactly the documented metrics, orders and metric parameters. After fit on a training collection X, for every valid collection X' (also another one) and every number of jobs: with a metric based on betti curves, landscapes, silhouettes, heat kernels or persistence images, the entry [i, j, k] of PairwiseDistance.transform(X') is the Minkowski distance of order p between the vectors which the corresponding vectorizer, fitted on X, returns for diagram i of X' and diagram j of X in the k-th homology dimension of X, times the size of a cell of the grid to the power 1/p (2/p for heat); Amplitude.transform returns the norms of the vectors with the same factor; the distances are pseudometrics. For bottleneck and wasserstein, distances are those of the external library on off-diagonal points, amplitudes are half the largest lifetime and the p-norm of half the lifetimes. With order, norms over the dimensions are returned. The result depends only on the last fit, the parameters then and the current metric and order: a new order, or a new metric of the same kind, acts as if set before fit, new metric_params are ignored. A failed fit leaves the object as it was. n_bins=1 is a valid value.", "quantifier": "all training and other collections of diagrams, metrics, metric parameters, orders, numbers of jobs, engines and sequences of calls of fit and set_params, including failing ones", "why_tests_cant": "The law joins fit, the samplings it stores, five families of vectors and norms, over all pairs of collections and all histories; tests compare a few arrays after one fit.", "anchors": ["gtda/diagrams/distance.py:PairwiseDistance", "gtda/diagrams/features.py:Amplitude", "gtda/diagrams/_metrics.py:_AVAILABLE_METRICS", "gtda/diagrams/_metrics.py:_parallel_pairwise", "gtda/diagrams/_metrics.py:_parallel_amplitude", "gtda/diagrams/_utils.py:_bin"]}
{"id": "C115", "title": "Scaler as a fitted object", "statement": "Scaler.fit stores as scale_ the value of function on the array which an Amplitude with the same metric and metric_params, fitted on the same diagrams, returns for them. transform divides and inverse_transform multiplies births and deaths of every valid collection by scale_, and they undo each other. With the bottleneck or wasserstein metric and a homogeneous function such as the maximum, the output of fit_transform does not depend on the unit of the filtration parameter, and a second fit_transform changes nothing. Before a fit with a valid collection both raise NotFittedError. Once fitted, the result does not depend on parameter changes and on failed calls of fit; after a new successful fit it is that of a new object. All values accepted for function lead to a usable object, and finite diagrams stay finite.", "quantifier": "all collections of diagrams, metrics, metric parameters, functions (which may raise or return NaN), numbers of jobs and sequences of calls of fit and set_params, including failing ones", "why_tests_cant": "Scale invariance, idempotence and independence of failed fits are statements about all diagrams, functions and histories; tests check a few scales.", "anchors": ["gtda/diagrams/preprocessing.py:Scaler", "gtda/diagrams/_metrics.py:_parallel_amplitude", "gtda/diagrams/features.py:Amplitude"]}
{"id": "C116", "title": "Persistent homology transformers as fitted objects", "statement": "For the seven persistent homology transformers, fit succeeds exactly if the parameters and the data are accepted, at least one dimension is requested and (weighted) the weight parameters are accepted. transform then calls the engine for every sample with the parameters of the object, the largest (flagser: and smallest) requested dimension (one more for complexes of GUDHI), the effective weight parameters and the periodic axes, and returns exactly the nonempty bars it reports, infinite deaths being replaced by infinity_values_, and points on the diagonal. The training data matter only for images without infinity_values; the order of execution never does. After any history ending with a successful fit the result is that of a new object. After fit, changes of homology_dimensions, infinity_values, weight_params and periodic_dimensions are ignored until the next fit, all other parameters act at once. Failed fits do not change what transform returns, and NotFittedError is raised until a fit has succeeded.", "quantifier": "all engines (which may raise), parameters, training and test collections, orders of execution and sequences of calls of fit and set_params, including failing ones, for all seven classes", "why_tests_cant": "Histories, parameter changes between fit and transform and failures half way through fit range over all sequences of calls; tests call fit_transform on new objects.", "anchors": ["gtda/homology/simplicial.py:VietorisRipsPersistence", "gtda/homology/simplicial.py:WeightedRipsPersistence", "gtda/homology/simplicial.py:SparseRipsPersistence", "gtda/homology/simplicial.py:WeakAlphaPersistence", "gtda/homology/simplicial.py:EuclideanCechPersistence", "gtda/homology/simplicial.py:FlagserPersistence", "gtda/homology/cubical.py:CubicalPersistence", "gtda/homology/_utils.py:_postprocess_diagrams"]}
{"id": "C117", "title": "Caching the transformers of a pipeline (memory)", "statement": "Let no object be used in two steps and let transformers forget earlier fits when they are fitted again. Then fit, fit_transform and fit_transform_resample of a pipeline with memory return, or raise, the same as without, and leave the steps fitted in the same way, whatever was done before with the same cache, also by other pipelines with other parameters. With memory the objects given to the pipeline are never changed, also if a step raises, except for the object of the final step; and once a pipeline was fitted, fitting an equally configured pipeline on the same data, targets and fit parameters fits no transformer again, whatever happened in between. If one object is used in two steps, the pipeline with memory behaves as if each step had an object of its own, the one without does not.", "quantifier": "all classes of estimators (methods may raise), all lists of steps, data, targets and fit parameters, and all histories of object creations, changes of objects and fits of pipelines with and without the cache", "why_tests_cant": "The content of the cache depends on the whole history of fits of all pipelines that use the directory; tests fit one pipeline with memory once or twice.", "anchors": ["gtda/pipeline.py:Pipeline._fit", "gtda/pipeline.py:Pipeline.fit", "gtda/pipeline.py:Pipeline.fit_transform", "gtda/pipeline.py:Pipeline.fit_transform_resample", "gtda/pipeline.py:_fit_transform_one", "gtda/pipeline.py:_fit_transform_resample_one"]}
{"id": "C118", "title": "Pipelines as steps of pipelines", "statement": "A pipeline may be a step of another pipeline. Nesting changes nothing: let the inner steps be transformers or resamplers with consistent methods. Then fit, fit_transform and fit_transform_resample of the nested pipeline return, or raise, the same as those of the flat pipeline that has the inner steps in place of the inner pipeline, and all estimators end in the same state, also those fitted before an exception, if the fit parameters of the inner steps get the name of the inner pipeline as an additional prefix. Both pipelines have the same methods, and transform, transform_resample, inverse_transform, score and resample return, or raise, the same.", "quantifier": "all lists of steps before, inside and after the inner pipeline, all estimators (methods may raise), all data, targets, fit parameters and states of the estimators", "why_tests_cant": "The equality ranges over all ways to cut a list of steps and over all exceptions and states; the tests nest nothing.", "anchors": ["gtda/pipeline.py:Pipeline._fit", "gtda/pipeline.py:Pipeline.fit", "gtda/pipeline.py:Pipeline.fit_transform", "gtda/pipeline.py:Pipeline.fit_transform_resample", "gtda/pipeline.py:Pipeline.transform", "gtda/pipeline.py:Pipeline.transform_resample", "gtda/pipeline.py:Pipeline.inverse_transform", "gtda/pipeline.py:Pipeline.score", "gtda/pipeline.py:Pipeline.resample"]}
{"id": "C119", "title": "Which methods a pipeline has; fit_predict; names given by make_pipeline", "statement": "hasattr tells the truth about a pipeline: for valid steps whose methods raise no AttributeError themselves, transform, transform_resample, inverse_transform, score and resample raise AttributeError only if the final step (for inverse_transform: some step) lacks the method, and then before any step is called. fit_predict fits the steps before the final one like fit does and calls fit_predict of the final step with what comes out and with its own fit parameters; without that method it raises AttributeError and fits nothing. make_pipeline keeps the estimators in order, gives them distinct names whatever classes occur how often, passes memory on and raises TypeError for any other keyword.", "quantifier": "all lists of steps and estimators, all data, targets and fit parameters; all lists of classes and keyword arguments", "why_tests_cant": "Availability depends on every combination of steps and methods; distinctness of names ranges over all lists of classes.", "anchors": ["gtda/pipeline.py:Pipeline.fit_predict", "gtda/pipeline.py:Pipeline.transform", "gtda/pipeline.py:Pipeline.transform_resample", "gtda/pipeline.py:Pipeline.resample", "gtda/pipeline.py:Pipeline.inverse_transform", "gtda/pipeline.py:Pipeline.score", "gtda/pipeline.py:make_pipeline"]}
{"id": "C120", "title": "Clusterers as fitted objects", "statement": "The clusterers of the Mapper module are objects whose parameters can be changed and that can be fitted again. Whatever was done before, including fits that raised, fit_predict of FirstSimpleGap and FirstHistogramGap returns or raises what it does for a new object with the current parameters, and n_clusters_, labels_ and the attributes of the tree belong to the latest data. linkage and affinity select the tree: 'ward' only with Euclidean affinity, an unknown linkage raises ValueError. A fit that raises leaves the object unchanged. ParallelClustering clones its clusterer: its result depends on the clusterer's current parameters only, not on its state, the clusterer object is not changed, and after an exception no incomplete labels can be read.", "quantifier": "all histories of parameter changes and fits, all data, parameters, trees and clusterers, all execution orders of the parallel tasks", "why_tests_cant": "Histories are unbounded and include failed fits; tests fit new objects once.", "anchors": ["gtda/mapper/cluster.py:FirstSimpleGap.fit", "gtda/mapper/cluster.py:FirstHistogramGap.fit", "gtda/mapper/cluster.py:Agglomerative._build_tree", "gtda/mapper/cluster.py:ParallelClustering.fit", "gtda/mapper/cluster.py:ParallelClustering.fit_transform", "gtda/mapper/cluster.py:ParallelClustering.fit_predict"]}
{"id": "C121", "title": "Covers as objects: validation, shapes, parameter changes and messages", "statement": "OneDimensionalCover.fit and fit_transform succeed exactly for valid parameters and data of one column (a one-dimensional array or an array with one column) that has two distinct values unless n_intervals is 1; CubicalCover exactly if every column is like that. Otherwise they raise and leave the object unchanged, and for valid parameters and data CubicalCover's exception names the first feature with a single value and the number of intervals. Whatever was done before, parameters included, transform and get_fitted_intervals use the intervals stored by the last successful call that stores any: changing parameters has no effect until the next fit. get_fitted_intervals returns exactly the intervals that transform uses. For data with one feature, CubicalCover and OneDimensionalCover agree. transform raises NotFittedError whenever the intervals are not known.", "quantifier": "all histories of parameter changes, fit and fit_transform, all arrays of both shapes, all parameter values including those of the wrong type", "why_tests_cant": "Histories and data are unbounded; success must be characterised for every input, and the two classes must agree on all of them.", "anchors": ["gtda/mapper/cover.py:OneDimensionalCover.fit", "gtda/mapper/cover.py:OneDimensionalCover.fit_transform", "gtda/mapper/cover.py:OneDimensionalCover.transform", "gtda/mapper/cover.py:OneDimensionalCover.get_fitted_intervals", "gtda/mapper/cover.py:CubicalCover.fit", "gtda/mapper/cover.py:CubicalCover.fit_transform", "gtda/mapper/cover.py:CubicalCover.transform", "gtda/mapper/cover.py:CubicalCover._clone_and_apply_to_column", "gtda/mapper/utils/_cover.py:_check_has_one_column"]}
{"id": "C122", "title": "Transformers whose fit does nothing", "statement": "For the transformers whose fit is documented to do nothing (Eccentricity, Entropy, Projection, PearsonDissimilarity, PermutationEntropy, TakensEmbedding, SlidingWindow, Resampler, Stationarizer, ForgetDimension, GraphGeodesicDistance, KNeighborsGraph, TransitionGraph; also ImageToPointCloud): fit accepts exactly the well-formed data and valid parameters, whatever happened before. Before the first accepted fit all other methods raise NotFittedError. After it their results are a function of the present parameters and of the arguments of the call, not of the data seen in fit, of refused fits, of earlier calls or of earlier parameters; fit_transform gives the same as transform. Projection of a data frame looks at the selected columns only.", "quantifier": "all histories of parameter changes, accepted and refused fits and calls, all inputs", "why_tests_cant": "Histories are unbounded, and independence of data seen earlier is a statement about all pairs of data sets.", "anchors": ["gtda/mapper/filter.py:Eccentricity", "gtda/mapper/filter.py:Entropy", "gtda/mapper/filter.py:Projection", "gtda/time_series/multivariate.py:PearsonDissimilarity", "gtda/time_series/features.py:PermutationEntropy", "gtda/time_series/embedding.py:TakensEmbedding", "gtda/time_series/embedding.py:SlidingWindow", "gtda/time_series/preprocessing.py:Resampler", "gtda/time_series/preprocessing.py:Stationarizer", "gtda/diagrams/preprocessing.py:ForgetDimension", "gtda/graphs/geodesic_distance.py:GraphGeodesicDistance", "gtda/graphs/kneighbors.py:KNeighborsGraph", "gtda/graphs/transition.py:TransitionGraph", "gtda/images/preprocessing.py:ImageToPointCloud"]}
{"id": "C123", "title": "Adapters: unions, extended classes and collections", "statement": "The objects that make other objects fit into mapper pipelines and collections change nothing but the form. ListFeatureUnion.fit_transform returns, for every order of execution, the list of the results of its transformers on the same data in the order of the steps, multiplied by the weight of their name; afterwards transform uses the fitted transformers, in the same order with the same weights; a dropped step is as if it had been removed. A class extended by method_to_transform has a transform returning the values of the method as a two-dimensional array, and fit_transform is fit followed by transform. identity returns its argument. A CollectionTransformer gives for each entry the result of a clone of the wrapped transformer, whether or not it is fitted, in every history, and never changes the wrapped transformer. fit of a nerve stores the graph fit_transform returns.", "quantifier": "all transformers, weights, data, orders of execution of parallel tasks and histories of calls", "why_tests_cant": "The wrapped objects are arbitrary, the schedule is not under control of a test, and histories are unbounded.", "anchors": ["gtda/mapper/utils/_list_feature_union.py:ListFeatureUnion", "gtda/mapper/utils/decorators.py:method_to_transform", "gtda/mapper/utils/pipeline.py:transformer_from_callable_on_rows", "gtda/mapper/utils/pipeline.py:identity", "gtda/metaestimators/collection_transformer.py:CollectionTransformer", "gtda/mapper/nerve.py:Nerve.fit", "gtda/mapper/cluster.py:ParallelClustering.transform"]}
{"id": "C124", "title": "Features and filtering of diagrams as fitted objects", "statement": "PersistenceEntropy, NumberOfPoints, ComplexPolynomial and Filtering after any history of set_params, fit and transform: before the first acceptable fit, transform raises NotFittedError; afterwards its columns (or the filtered dimensions) are those of the last acceptable fit, whatever was fitted earlier or refused since, and apply to every collection. normalize, nan_fill_value and epsilon are the present ones; the type and the numbers of coefficients of ComplexPolynomial are those at the time of fit. A fit that raises does not change the results, and neither does changing, after fit, a list that was passed as a parameter.", "quantifier": "all histories of parameter changes, accepted and refused fits and transforms, all collections and numbers of jobs", "why_tests_cant": "Histories are unbounded; tests fit once and with valid data.", "anchors": ["gtda/diagrams/features.py:PersistenceEntropy", "gtda/diagrams/features.py:NumberOfPoints", "gtda/diagrams/features.py:ComplexPolynomial", "gtda/diagrams/preprocessing.py:Filtering"]}
{"id": "C125", "title": "Local homology at a point is that of its neighbourhoods in the training data", "statement": "After a successful fit of RadiusLocalVietorisRips on F, whatever was done before and whatever is done after it except refitting or changing the metric, transform returns for every point y the persistent homology (in the dimensions requested at the time of the fit) of the space made of the points of F within the smaller radius of y, those within the larger radius, and a cone over the points between the radii; a single point if there is none within the smaller radius. For KNeighborsLocalVietorisRips, the same with the nearest points in the given numbers. The diagram at y does not depend, off the diagonal, on the other points transformed. Changing a parameter after fit, and a fit that raises, do not change the result.", "quantifier": "all training data, transformed points, radii and numbers of neighbours, metrics, histories of fits, transforms and parameter changes, orders of execution, all neighbour searches satisfying the documented contract", "why_tests_cant": "Histories, point clouds and the ties of neighbour searches are unbounded; tests use a few clouds and fit once.", "anchors": ["gtda/local_homology/simplicial.py:LocalVietorisRipsBase.transform", "gtda/local_homology/simplicial.py:KNeighborsLocalVietorisRips.fit", "gtda/local_homology/simplicial.py:RadiusLocalVietorisRips.fit", "gtda/local_homology/simplicial.py:LocalVietorisRipsBase.fit"]}
{"id": "C126", "title": "A fitted Labeller or SingleTakensEmbedding keeps transform and resample aligned", "statement": "After an accepted fit, Labeller.transform and Labeller.resample of series of equal length return equally many entries, entry i of the latter being made from the window that ends n_steps_future after the sample in entry i of the former, either its value or the number of training percentiles it reaches; whatever happened before the fit. The same alignment holds for SingleTakensEmbedding, with the delay and dimension of the last accepted fit. Both raise NotFittedError before the first accepted fit; parameter changes after fit and refused fits do not break the alignment.", "quantifier": "all histories of fits and parameter changes, all series, window sizes, horizons, functions, percentiles, delays, dimensions and strides", "why_tests_cant": "Histories and series are unbounded; tests fit once and never change a parameter afterwards.", "anchors": ["gtda/time_series/target.py:Labeller.fit", "gtda/time_series/target.py:Labeller.transform", "gtda/time_series/target.py:Labeller.resample", "gtda/time_series/embedding.py:SingleTakensEmbedding.fit", "gtda/time_series/embedding.py:SingleTakensEmbedding.transform", "gtda/time_series/embedding.py:SingleTakensEmbedding.resample"]}
{"id": "C127", "title": "Midpoint, length, floor division, text and identity of intervals agree with the intervals as sets", "statement": "For an interval with finite end points, mid is equally far from both ends and is a member unless the interval is empty; length is the supremum of the distances between members; open_left and open_right say that the end points are not members; str and repr determine the interval; I // y contains the integer quotients of the members of I; intervals with the same value can be used for each other, for instance as dictionary keys. With infinite end points mid and length are the infinite values or NaN.", "quantifier": "all intervals, finite and infinite end points, divisors, dictionaries", "why_tests_cant": "End points and divisors range over infinite sets; tests check a few intervals.", "anchors": ["gtda/utils/intervals.py:Interval.mid", "gtda/utils/intervals.py:Interval.length", "gtda/utils/intervals.py:Interval.__floordiv__", "gtda/utils/intervals.py:Interval.__hash__", "gtda/utils/intervals.py:Interval.__str__", "gtda/utils/intervals.py:Interval.__repr__"]}
{"id": "C128", "title": "What a Mapper graph does not depend on", "statement": "Reordering the samples gives the same Mapper graph up to the numbering of samples, nodes and clusters: nodes correspond to each other one to one, with the same pullback set and samples, and corresponding nodes are joined by edges of the same weight. Strictly increasing transformations of the filter values do not change the graph for balanced covers, nor do changes of unit and origin for uniform covers. Raising min_intersection only removes the edges of smaller weight; store_edge_elements only adds the attribute.", "quantifier": "all data sets, orders of the samples, scalers, filter functions, covers and their parameters, clusterers that are insensitive to order, schedules of parallel tasks, values of min_intersection", "why_tests_cant": "It relates runs on all reorderings and transformations of all data sets; tests compare single runs with stored graphs.", "anchors": ["gtda/mapper/pipeline.py:make_mapper_pipeline", "gtda/mapper/cover.py:OneDimensionalCover.fit_transform", "gtda/mapper/cover.py:CubicalCover.fit_transform", "gtda/mapper/cluster.py:ParallelClustering.fit", "gtda/mapper/nerve.py:Nerve.fit_transform"]}
{"id": "C129", "title": "Image transformers as fitted objects", "statement": "fit of every image transformer accepts exactly collections of at least one image with one to three axes (two or three for height, radial and density filtrations), with pixels where needed, and parameters in the documented range; transform before any fit raises NotFittedError. transform uses what the last accepted fit saw, whatever was refused or changed since: Binarizer compares with the largest training pixel times the present threshold, Inverter subtracts from it, Padder adds borders of the fitted widths with the present value, the filtrations by dilation, erosion and signed distance give grid distances up to the fitted number of iterations in images of any shape, height, radial and density filtrations give the documented pixel values with the fitted direction, centre, radius and metric. A refused fit leaves the object as it was.", "quantifier": "all histories of set_params, fit (accepted or refused) and transform on one object, all parameters, image collections of all shapes, numbers of jobs", "why_tests_cant": "Histories and shapes are unbounded; tests fit once and transform the same images, and never look at an object after a refused fit.", "anchors": ["gtda/images/preprocessing.py:Binarizer.fit", "gtda/images/preprocessing.py:Inverter.fit", "gtda/images/preprocessing.py:Padder.fit", "gtda/images/filtrations.py:HeightFiltration.fit", "gtda/images/filtrations.py:RadialFiltration.fit", "gtda/images/filtrations.py:DilationFiltration.fit", "gtda/images/filtrations.py:ErosionFiltration.fit", "gtda/images/filtrations.py:SignedDistanceFiltration.fit", "gtda/images/filtrations.py:DensityFiltration.fit"]}
{"id": "C130", "title": "Diagram features in other units", "statement": "If all births and deaths are measured in another unit (times a > 0) and from another origin (plus c), and parameters that are lengths (sigma, epsilon, arguments of weight functions) are expressed in the new unit, then after the same history of fit and set_params: samplings move with the data; Betti curves and numbers of points are unchanged; landscapes and silhouettes are multiplied by a, heat kernels and persistence images divided by a squared; PairwiseDistance and Amplitude are multiplied by a for bottleneck and Wasserstein, a^(1/p) for Betti curves, a·a^(1/p) for landscapes and silhouettes, a^(2/p)/a^2 for heat kernels and images, whatever the order; PersistenceEntropy without normalize is unchanged; Filtering gives the same diagrams in the new unit if c = 0; the fitted scale of Scaler is multiplied by the factor of its metric, so scaled diagrams do not depend on the unit for bottleneck and Wasserstein. Dependence on the unit or the origin remains where a parameter that is a length is kept (HeatKernel), for Scaler with other metrics, for normalize, and for Filtering when c is not 0 (emptied dimensions get the point (0, 0)).", "quantifier": "all a > 0 and c, all histories of fit and set_params on one object, all parameters, diagrams, numbers of jobs, all engines whose norms, powers and matching distances are homogeneous", "why_tests_cant": "Tests compare with stored arrays for one choice of units; how results change with a and c is a statement about all inputs and all units at once.", "anchors": ["gtda/diagrams/representations.py:BettiCurve.transform", "gtda/diagrams/representations.py:PersistenceLandscape.transform", "gtda/diagrams/representations.py:Silhouette.transform", "gtda/diagrams/representations.py:HeatKernel.transform", "gtda/diagrams/representations.py:PersistenceImage.transform", "gtda/diagrams/distance.py:PairwiseDistance.transform", "gtda/diagrams/features.py:Amplitude.transform", "gtda/diagrams/features.py:PersistenceEntropy.transform", "gtda/diagrams/features.py:NumberOfPoints.transform", "gtda/diagrams/preprocessing.py:Scaler.fit", "gtda/diagrams/preprocessing.py:Filtering.transform"]}
{"id": "C131", "title": "Heat maps and other plots of single samples", "statement": "plot(Xt, sample) of image transformers and of transformers returning distance matrices shows Xt[sample] (booleans as 0 and 1), samples counted from either end, with the first row at the top, or at the bottom if there is a parameter origin and it is 'lower', with the colour scale asked for and a title naming the class and the sample; plotly_params replaces exactly the properties given under 'trace' and 'layout', unknown properties are a ValueError and samples out of range an IndexError. Plots of embedded series and of point clouds of images draw every point in order; Filtering.plot draws the dimensions asked for, else the fitted ones. fit_transform_plot fits on the whole collection and draws and returns what fit_transform gives for that sample (false for sample=-1, which raises the error for empty input). Wrong values of origin and wrong keys of plotly_params (such as 'traces', used by other plots) should be refused: they are not.", "quantifier": "all images, collections, samples, colour scales, dictionaries plotly_params, sets of properties known to plotly, transformers acting sample by sample", "why_tests_cant": "The tests only check that plot methods return without raising; what is drawn is not compared with anything.", "anchors": ["gtda/plotting/images.py:plot_heatmap", "gtda/images/filtrations.py:HeightFiltration.plot", "gtda/images/preprocessing.py:Binarizer.plot", "gtda/images/preprocessing.py:ImageToPointCloud.plot", "gtda/graphs/geodesic_distance.py:GraphGeodesicDistance.plot", "gtda/point_clouds/rescaling.py:ConsistentRescaling.plot", "gtda/time_series/embedding.py:TakensEmbedding.plot", "gtda/diagrams/preprocessing.py:Filtering.plot", "gtda/base.py:PlotterMixin.fit_transform_plot"]}
{"id": "C132", "title": "Symmetry, monotonicity and duality of image filtrations", "statement": "Reflecting an image or exchanging its axes reflects or exchanges its dilation, erosion and signed-distance filtrations; with the direction (or centre, or a metric that is invariant) transformed along, also its height, radial and density filtrations, max_value_ included. If active pixels are added, values of the dilation filtration do not increase, those of erosion, signed distance and density do not decrease. Dilation of an image is erosion of its complement, signed distances of an image and its complement add up to -1 (0 where nothing is within n_iterations), densities of both to the density of the full image. Dilating the pixels reached after k steps continues the dilation k steps ahead; without a limit values of pixels at grid distance d differ by at most d. Heights in opposite directions add up to the extent of the array, max_value_ - 1; the length of direction does not matter. Densities grow with the radius.", "quantifier": "all binary images of all shapes with 2 or 3 axes (dilation, erosion, signed distance: any number), positions in collections, numbers of jobs and iterations, directions, centres, radii and metrics as stated", "why_tests_cant": "Tests compare a few small images with stored results; that results do not depend on orientation, and relations between results for different images, concern all images at once.", "anchors": ["gtda/images/filtrations.py:DilationFiltration.transform", "gtda/images/filtrations.py:ErosionFiltration.transform", "gtda/images/filtrations.py:SignedDistanceFiltration.transform", "gtda/images/filtrations.py:HeightFiltration.fit", "gtda/images/filtrations.py:HeightFiltration.transform", "gtda/images/filtrations.py:RadialFiltration.transform", "gtda/images/filtrations.py:DensityFiltration.transform"]}
{"id": "C133", "title": "Several interactive Mapper plots in one session, and their logs", "statement": "A plot made by plot_interactive_mapper_graph, or by a MapperInteractivePlotter whose plot method is called once and which shares its pipeline with no other plotter (always so with clone_pipeline=True), behaves as if it were alone: its parameters, graph_, figure_, node_summaries_, color_features_, widgets and validity depend only on the values entered in its own widgets. With clone_pipeline=True for all plotters the caller's pipelines are never changed; without, pipeline_ is the caller's pipeline. The log, displayed exactly while 'Show logs' is ticked, tells about the latest change: that the figure is updated if the parameters are valid, else the exception, which is the one raised by fitting if the pipeline cannot be fitted. (False with several plots in a session: each log also gets the records of all other plots; false if plot is called twice, or if two plotters share a pipeline without cloning.)", "quantifier": "all sessions: sequences of new plotters, calls of plot, values entered in any plot, clicks on 'Show logs'; all pipelines, engines (also failing) and schedules of the front end", "why_tests_cant": "Widgets, plotters, pipelines and the logger of the module are shared mutable objects; tests look at one plot with one or two changes.", "anchors": ["gtda/mapper/visualization.py:plot_interactive_mapper_graph", "gtda/mapper/visualization.py:MapperInteractivePlotter.plot", "gtda/mapper/visualization.py:MapperInteractivePlotter.graph_", "gtda/mapper/visualization.py:MapperInteractivePlotter.pipeline_", "gtda/mapper/visualization.py:MapperInteractivePlotter.figure_", "gtda/mapper/utils/_logging.py:OutputWidgetHandler"]}
{"id": "C134", "title": "The documentation of fit_transform matches fit and transform, and decorating a class changes nothing else", "statement": "The docstring of fit_transform of a decorated transformer consists of the standard introduction with the words X, y and fit_params in backquotes (other words containing them unchanged), the Parameters section of fit and the Returns section of transform; fit_transform behaves as before for all arguments and all other methods are unchanged; a class without fit, transform or fit_transform, or whose docstrings or sections are missing, is rejected when it is defined. (False for Returns sections with more than one paragraph: the last paragraph is dropped, as happens for TakensEmbedding.)", "quantifier": "all docstrings, all standard docstrings, all classes, all arguments of fit_transform", "why_tests_cant": "Greedy regular expressions and chained replacements depend on how often headings, empty lines and replaced texts occur in docstrings; no test looks at docstrings.", "anchors": ["gtda/utils/_docs.py:get_preamble_docs", "gtda/utils/_docs.py:get_inputs_docs", "gtda/utils/_docs.py:get_outputs_docs", "gtda/utils/_docs.py:make_fit_transform_docs", "gtda/utils/_docs.py:adapt_fit_transform_docs"]}
{"id": "C135", "title": "Time series transformers in sequence", "statement": "SingleTakensEmbedding with time delay 1 is SlidingWindow, for X and for targets, including exceptions. Windows of the points of a Takens embedding are the Takens embeddings of the windows. Windows of m returns or log-returns are the returns of windows of m + 1 samples. Resampling twice is resampling once with the product of the periods, and the log-returns of a resampled series are the sums of the log-returns in between. A Takens embedding with a stride that is a multiple of the time delay is a sliding window over the resampled series. Windows with stride s are every s-th of all windows counted from the last one; earlier samples put in front leave the windows of the series as the last ones, later samples as the first ones. (The law about resampling and embeddings holds only if the number of samples is one more than a multiple of the time delay, the one about later samples only if their number is a multiple of the stride.)", "quantifier": "all series of any length, all sizes, strides, periods, time delays and dimensions", "why_tests_cant": "Equations between pipelines for all lengths and parameters: windows are aligned with the last sample, resampling with the first, so that the equations fail or hold depending on remainders that fixed examples do not reach.", "anchors": ["gtda/time_series/embedding.py:SlidingWindow", "gtda/time_series/embedding.py:SingleTakensEmbedding", "gtda/time_series/_utils.py:_time_delay_embedding", "gtda/time_series/preprocessing.py:Resampler", "gtda/time_series/preprocessing.py:Stationarizer"]}
{"id": "C136", "title": "Image preprocessors in sequence", "statement": "Padding a collection twice with one value is padding it once with the widths added. Inverting a padded collection against a number m is padding the inverted collection with m minus the value. Binarizer fitted on a collection padded with a value not above its maximum gives the padded binarized images. Binarizing a binarized collection changes nothing, and raising the threshold only switches pixels off. The point cloud of a collection padded with zeros is the point cloud moved by the paddings (column padding horizontally, row padding vertically), in the same order; that of an inverted boolean image is the complement; that of a binarized image lists the pixels above the threshold. (Not so with a maximum learnt after padding when the value exceeds it, and not for twice binarized negative images with threshold 1.)", "quantifier": "all collections of images of any shape and values, all paddings, values, thresholds, dtypes and numbers of jobs", "why_tests_cant": "Equations between pipelines over all shapes, widths and pixel values; they depend on index arithmetic per axis, on the flip of rows and the exchange of axes, and on what is learnt in fit.", "anchors": ["gtda/images/preprocessing.py:Padder", "gtda/images/preprocessing.py:Inverter", "gtda/images/preprocessing.py:Binarizer", "gtda/images/preprocessing.py:ImageToPointCloud"]}
{"id": "C137", "title": "Features of joined diagrams", "statement": "If each diagram of a collection is joined with the corresponding diagram of another (the points put together), then: layer k of the landscape is the smallest of the maxima of layers a and b of the two with a + b = k; the silhouette is the average of the two silhouettes weighted by the sums of powers of lifetimes; heat kernel and persistence images are sums of images; numbers of points add; the bottleneck amplitude is the larger of the two, and the p-th powers of Wasserstein amplitudes add; the entropy is the average of the entropies weighted by shares of total lifetime plus the entropy of the shares; complex polynomials multiply. Betti curves after forgetting dimensions are sums of Betti curves over dimensions.", "quantifier": "all pairs of collections with any numbers of diagrams and points, all homology dimensions, samplings, powers, exponents, layers, numbers of jobs and (for images) all additive filters", "why_tests_cant": "Algebraic laws between outputs for all pairs of diagrams; sorting in landscapes, rescaling of weights in silhouettes, binning in images and normalisation in entropies could break them for particular sizes or ties only.", "anchors": ["gtda/diagrams/representations.py:PersistenceLandscape", "gtda/diagrams/representations.py:Silhouette", "gtda/diagrams/representations.py:HeatKernel", "gtda/diagrams/representations.py:PersistenceImage", "gtda/diagrams/representations.py:BettiCurve", "gtda/diagrams/features.py:Amplitude", "gtda/diagrams/features.py:PersistenceEntropy", "gtda/diagrams/features.py:NumberOfPoints", "gtda/diagrams/features.py:ComplexPolynomial", "gtda/diagrams/preprocessing.py:ForgetDimension"]}
{"id": "C138", "title": "GUDHI wrapper objects", "statement": "The classes CubicalComplex, PeriodicCubicalComplex, SimplexTree, RipsComplex, SparseRipsComplex, CechComplex, WitnessComplex and StrongWitnessComplex pass arguments and results of the compiled engine unchanged: a complex is built from cells, from a file or (with a printed message) not at all; persistence gives what a new object on the current complex would give, whatever was called before; Betti numbers, persistent Betti numbers and intervals are those of the last call of persistence; intervals come as an array of dimension 2; a failed call leaves an object usable; and the persistence transformers get exactly the engine's pairs for each image or cloud, or its exception.", "quantifier": "all histories of calls (changes of the complex and computations with any arguments, accepted or refused), all complexes, all engines, all combinations of constructor arguments", "why_tests_cant": "The objects keep and delete state between calls; which state a call finds depends on the whole history, and engines may refuse a call at any point of it.", "anchors": ["gtda/externals/python/cubical_complex_interface.py:CubicalComplex", "gtda/externals/python/periodic_cubical_complex_interface.py:PeriodicCubicalComplex", "gtda/externals/python/simplex_tree_interface.py:SimplexTree", "gtda/externals/python/rips_complex_interface.py:RipsComplex", "gtda/externals/python/rips_complex_interface.py:SparseRipsComplex", "gtda/externals/python/cech_complex_interface.py:CechComplex", "gtda/externals/python/witness_complex_interface.py:WitnessComplex", "gtda/externals/python/strong_witness_complex_interface.py:StrongWitnessComplex", "gtda/homology/cubical.py:CubicalPersistence._gudhi_diagram", "gtda/homology/simplicial.py:SparseRipsPersistence._gudhi_diagram", "gtda/homology/simplicial.py:EuclideanCechPersistence._gudhi_diagram"]}
{"id": "C139", "title": "Distances and amplitudes converge as n_bins grows", "statement": "As n_bins grows, the distances of PairwiseDistance and the amplitudes of Amplitude for the metrics 'betti', 'landscape' and 'silhouette' converge, in each homology dimension, to the p-norms of (differences of) the curves which the glossary defines: p-th roots of sums of integrals of p-th powers for finite p, suprema for p infinite. The curves are compared on the range from the smallest birth to the largest death of the training collection, which for diagrams of that collection is the same as comparing them on the whole real line. With order, the returned norms converge to the norms of the limits.", "quantifier": "all training and transformed collections, all p at least 1 (also infinite), all numbers of layers, powers and orders, any history of the fitted objects, any n_jobs", "why_tests_cant": "A test fixes one n_bins and compares with numbers computed by the same code; that sampled norms approximate the documented integrals is a statement about limits and about curves with jumps.", "anchors": ["gtda/diagrams/distance.py:PairwiseDistance", "gtda/diagrams/features.py:Amplitude", "gtda/diagrams/_metrics.py:betti_distances", "gtda/diagrams/_metrics.py:landscape_distances", "gtda/diagrams/_metrics.py:silhouette_distances", "gtda/diagrams/_metrics.py:betti_amplitudes", "gtda/diagrams/_metrics.py:landscape_amplitudes", "gtda/diagrams/_metrics.py:silhouette_amplitudes", "gtda/diagrams/_utils.py:_bin"]}
{"id": "C140", "title": "Which features change little when diagrams change little", "statement": "If the births and deaths of diagrams change little, the following features change little: bottleneck amplitudes by no more than the births and deaths; 'betti' distances with p=1 by no more than twice the 1-Wasserstein distance of the diagrams, up to the resolution of the sampling; persistence entropies and silhouettes depend continuously on births and deaths as long as no diagram consists of diagonal points only.", "quantifier": "all collections of diagrams, all small changes of births and deaths, all samplings, powers and homology dimensions, any n_jobs", "why_tests_cant": "Stability compares the output for a collection with the output for every collection near it, and the bound must hold for every tolerance; a test compares a few pairs.", "anchors": ["gtda/diagrams/distance.py:PairwiseDistance", "gtda/diagrams/features.py:Amplitude", "gtda/diagrams/features.py:PersistenceEntropy", "gtda/diagrams/features.py:NumberOfPoints", "gtda/diagrams/representations.py:Silhouette", "gtda/diagrams/_metrics.py:betti_distances", "gtda/diagrams/_metrics.py:bottleneck_amplitudes"]}
{"id": "C141", "title": "What filtering changes in features and distances", "statement": "Filtering with a non-negative epsilon moves no diagram by more than epsilon/2 in the bottleneck distance and changes no bottleneck distance between two filtered collections by more than epsilon. Afterwards Betti curves count the living features with lifetime larger than epsilon; no value of a landscape has grown, and none has fallen by more than epsilon/2; the bottleneck amplitude in a filtered dimension is unchanged if the largest lifetime exceeds epsilon and zero otherwise. With epsilon=0 no bottleneck or Wasserstein distance changes at all.", "quantifier": "all collections of diagrams, all choices of filtered dimensions, all epsilon, all samplings and numbers of layers, any n_jobs", "why_tests_cant": "The bounds relate two runs on every collection and every epsilon; a test checks the effect of one filtering on one collection.", "anchors": ["gtda/diagrams/preprocessing.py:Filtering", "gtda/diagrams/_utils.py:_filter", "gtda/diagrams/distance.py:PairwiseDistance", "gtda/diagrams/features.py:Amplitude", "gtda/diagrams/representations.py:BettiCurve", "gtda/diagrams/representations.py:PersistenceLandscape"]}
{"id": "C142", "title": "Graph and rescaling transformers depend on the graph, not on how it is written down", "statement": "For every shortest-path engine that is correct on its documented domain: if no weight is negative or weights are ignored, GraphGeodesicDistance returns for every pair of vertices the length of a shortest walk, and infinity exactly where there is no walk. Renumbering the vertices, changing the kind of matrix or the method renumbers the distances; multiplying the weights by a positive number multiplies the distances by it, and leaves them unchanged if unweighted; adding edges or lowering weights does not enlarge any distance; reversing all edges transposes the result. Renaming the states of a TransitionGraph by an injective map renumbers its vertices, and reversing the series transposes its matrix. For symmetric metrics, permuting the points permutes the matrix of ConsistentRescaling; for other metrics it need not.", "quantifier": "all well-formed adjacency matrices of all four kinds, all weights, methods, permutations, scale factors, state functions, series, point clouds and symmetric metrics", "why_tests_cant": "The relations are between runs on unboundedly many graphs and all their renumberings.", "anchors": ["gtda/graphs/geodesic_distance.py:GraphGeodesicDistance._geodesic_distance", "gtda/graphs/transition.py:TransitionGraph._make_adjacency_matrix", "gtda/point_clouds/rescaling.py:ConsistentRescaling._consistent_rescaling"]}
{"id": "C143", "title": "Diagram preprocessors used one after the other", "statement": "For every collection of diagrams: with a scaler of positive scale s, Scaler followed by Filtering(epsilon) returns the same array as Filtering(s*epsilon) followed by the same Scaler. The default Scaler (bottleneck, np.max) accepts every training collection and its scale is half the longest lifetime, so that Scaler followed by Filtering(epsilon) keeps exactly the points whose lifetime exceeds epsilon/2 times the longest one, in order. Filtering with a threshold below the longest lifetime, in any dimensions, does not change the scale the default Scaler finds; if nothing is left, the Scaler accepts the collection but then returns no finite number. Filterings in different dimensions give the same points in every dimension in either order. ForgetDimension and Scaler return the same array in either order. It is false that the threshold is free of units, that the Wasserstein scale survives filtering, and that the arrays (rather than the points per dimension) are independent of the order of filters.", "quantifier": "all fitted scalers with positive scale, all collections of diagrams, all sets of dimensions, all thresholds, all numbers of jobs", "why_tests_cant": "Tests of preprocessors look at one transformer at a time on one array; how two of them combine, including the padding they insert, is a statement about all arrays, thresholds and scales.", "anchors": ["gtda/diagrams/preprocessing.py:Scaler", "gtda/diagrams/preprocessing.py:Filtering", "gtda/diagrams/preprocessing.py:ForgetDimension", "gtda/diagrams/_utils.py:_filter", "gtda/diagrams/_metrics.py:_parallel_amplitude"]}
{"id": "C144", "title": "How Mapper covers and gap clusterers respond to their parameters", "statement": "For every number of intervals and every two overlap fractions f <= g: each interval of the uniform cover fitted with f is contained in the interval of the same position fitted with g on the same data, so that on any later data every returned set is contained in a set returned with g; for the balanced cover this holds for the sets returned by fit_transform. FirstSimpleGap never finds more clusters with a larger relative_gap_size and never fewer with a larger max_fraction, as long as max_fraction times the number of samples is at least one; if cuts of the tree into fewer clusters are coarser, samples in one cluster stay together. Multiplying all merge distances by a positive number changes neither labels_ nor n_clusters_ of FirstSimpleGap and FirstHistogramGap, nor which exception is raised. It is false that the first statement about clusters holds for smaller max_fraction, that FirstHistogramGap responds monotonically, in either direction, to freq_threshold or n_bins_start, and that a cover with more intervals refines one with fewer.", "quantifier": "all data, all numbers of intervals, all pairs of overlap fractions, all later data; all trees and merge distances, all pairs of hyperparameters, all positive scale factors", "why_tests_cant": "Tests fit each estimator with a few parameter values and compare with stored output; monotonicity compares two fits for all pairs of parameters and all data, and freedom from units holds for all factors, including the widened range of equal distances.", "anchors": ["gtda/mapper/cover.py:OneDimensionalCover", "gtda/mapper/cluster.py:FirstSimpleGap", "gtda/mapper/cluster.py:FirstHistogramGap", "gtda/mapper/utils/_cluster.py:_num_clusters_simple", "gtda/mapper/utils/_cluster.py:_num_clusters_histogram"]}
{"id": "C145", "title": "How many bins are enough for distances and amplitudes", "statement": "For PairwiseDistance and Amplitude with the metrics betti, landscape and silhouette, any valid parameters, any training collection and any later collection: with n bins and p finite, the p-th power of each returned number (before reduction by order) differs from the p-th power of its limit for many bins by at most step times an explicit amount which does not depend on n, where step is the length of the range of the training collection divided by n - 1. The amount is made of a bound M of the curves, p, the number of curves, and how much the curves go up and down (twice the number of points for Betti curves, the length of the range for layers and silhouettes). The error of the number itself is at most the p-th root. With p infinite, for landscape and silhouette, returned numbers never exceed their limits, and fall short by at most step (distances) or step/2 (amplitudes). It is false that some number of bins is enough for Betti curves with p infinite.", "quantifier": "all numbers of bins from 2 on, all orders p, all training collections, all later collections, all pairs of diagrams, all homology dimensions, all numbers of jobs", "why_tests_cant": "A test computes distances for one number of bins; an error bound relates them to an integral or a supremum, which no run computes, for all numbers of bins and all diagrams.", "anchors": ["gtda/diagrams/distance.py:PairwiseDistance", "gtda/diagrams/features.py:Amplitude", "gtda/diagrams/_metrics.py:betti_distances", "gtda/diagrams/_metrics.py:landscape_distances", "gtda/diagrams/_metrics.py:silhouette_distances", "gtda/diagrams/_utils.py:_bin"]}
{"id": "C146", "title": "Cubical covers: features, overlap and number of sets", "statement": "For CubicalCover, uniform or balanced: permuting the features (in the training data and in later data alike) changes at most the order of the returned sets. Removing features only enlarges: each set returned with all features is contained in a set returned with fewer. Raising overlap_frac only enlarges in the same sense, on any later data for uniform covers and on the training data for balanced ones. At most n_intervals to the power n_features sets are returned, and with overlap_frac at most one half a sample (for balanced covers: a training sample) is in at most 2 to the power n_features of them. On one feature the result, exceptions included, is that of OneDimensionalCover. (False: the order of the sets is independent of the order of the features; the bound on the sets of a sample holds for every overlap_frac.)", "quantifier": "all training data and later data, all numbers of features and samples, all permutations and subsets of the features, all n_intervals and overlap_frac, both kinds", "why_tests_cant": "It compares covers over all permutations and subsets of features and all overlaps; a test compares single covers with stored masks.", "anchors": ["gtda/mapper/cover.py:CubicalCover.fit", "gtda/mapper/cover.py:CubicalCover.transform", "gtda/mapper/cover.py:CubicalCover.fit_transform", "gtda/mapper/cover.py:_combine_one_dim_covers", "gtda/mapper/cover.py:OneDimensionalCover.fit_transform", "gtda/mapper/utils/_cover.py:_remove_empty_and_duplicate_intervals"]}
{"id": "C147", "title": "Features of the same diagrams agree with each other", "statement": "Fitted on the same training diagrams and applied to the same diagrams: with equal n_bins, layer k of PersistenceLandscape (k from 0) is positive at a bin if and only if more than k intervals counted by BettiCurve at that bin do not begin exactly there; Silhouette is between 0 and the first layer and is 0 exactly where that is 0. NumberOfPoints bounds BettiCurve, and layers from that number on are 0, and that many layers add up at every bin to the sum of the tent functions of the points. The wasserstein Amplitude is at least the bottleneck one and at most that times NumberOfPoints to the power 1/p, and it decreases as p grows. With infinite p the landscape Amplitude is at most the bottleneck one, and at least that minus half the distance between bins for diagrams within the range of the training diagrams, and the betti Amplitude at most NumberOfPoints; for every p the silhouette Amplitude is at most the landscape one, which grows with n_layers; with order such relations carry over. PersistenceEntropy is at most the binary logarithm of NumberOfPoints, and 0 if and only if there is one point. (False: the first layer is positive wherever BettiCurve is; the landscape Amplitude with infinite p equals the bottleneck one.)", "quantifier": "all training collections, all collections to transform, all fitted objects of the classes with any earlier history, all numbers of bins, layers and jobs, all powers and orders", "why_tests_cant": "It relates outputs of different classes for all diagrams; unit tests check each class by itself on stored diagrams.", "anchors": ["gtda/diagrams/representations.py:BettiCurve.transform", "gtda/diagrams/representations.py:PersistenceLandscape.transform", "gtda/diagrams/representations.py:Silhouette.transform", "gtda/diagrams/features.py:Amplitude.transform", "gtda/diagrams/features.py:NumberOfPoints.transform", "gtda/diagrams/features.py:PersistenceEntropy.transform", "gtda/diagrams/_metrics.py:_parallel_amplitude"]}
{"id": "C148", "title": "The shape of Mapper graphs, and how it depends on cover and clusterer", "statement": "Without contraction of nodes: the sizes of all nodes of a Mapper graph add up to the numbers of nodes each sample is in, and with min_intersection at most 1 the weights of all edges add up to the numbers of pairs of nodes each sample is in (to at most that otherwise). With a OneDimensionalCover, uniform or balanced, whose overlap_frac is at most 1/2, each node lies over one interval, nodes over the same interval are disjoint, edges join nodes over neighbouring intervals only (so there are no triangles), each sample is in one or two nodes, and with min_intersection at most 1 the sizes of nodes add up to the number of samples plus all weights; with a CubicalCover of d columns each sample is in at most 2^d nodes. If a clusterer gives equal labels whenever another one does, the graph of the first is an image of the graph of the other: nodes are unions of nodes of the same pullback set, edges go to edges of at least the same weight, and with min_intersection at most 1 every edge arises in this way. (Bounds for OneDimensionalCover are false for overlap_frac above 1/2.)", "quantifier": "all data, scalers, filter functions, clustering preprocessings and clusterers, all numbers of intervals and overlaps, all orders of parallel tasks, all values of min_intersection", "why_tests_cant": "These are identities and inclusions between all nodes and edges of graphs of arbitrary size, and relations between graphs for different clusterers; tests compare a few stored graphs.", "anchors": ["gtda/mapper/pipeline.py:make_mapper_pipeline", "gtda/mapper/cover.py:OneDimensionalCover", "gtda/mapper/cover.py:CubicalCover", "gtda/mapper/cluster.py:ParallelClustering", "gtda/mapper/nerve.py:Nerve.fit_transform"]}
{"id": "C149", "title": "Pearson dissimilarities as distances between time series", "statement": "PearsonDissimilarity gives NaN exactly for pairs of variables one of which is constant, also on the diagonal, and other entries do not depend on such variables. Multiplying variables by non-zero numbers and shifting them changes nothing with absolute_value=True; otherwise it changes nothing for pairs of variables multiplied by numbers of the same sign and turns v into 1 - v for the others. The order of the time points does not matter, and permuting, leaving out or repeating variables does the same to rows and columns of the matrix. For non-constant variables the square roots of the dissimilarities satisfy the triangle inequality; a dissimilarity is 0 exactly for variables which differ by scale and shift only, and 1 exactly for variables which differ by a negative scale and a shift, or for uncorrelated variables with absolute_value=True. (The triangle inequality is false without the square roots.)", "quantifier": "all multivariate series of any length and number of variables, all scales and shifts, all permutations of time points, all choices of variables, both values of absolute_value", "why_tests_cant": "Invariances and inequalities between entries hold for all real series; tests compare a few matrices.", "anchors": ["gtda/time_series/multivariate.py:PearsonDissimilarity"]}
{"id": "C150", "title": "Eccentricities, and Mapper graphs made with them, depend on distances only", "statement": "Eccentricity gives the same for samples and, with metric=\"precomputed\", for their distance matrix; multiplying all distances by a number multiplies all eccentricities by it, wherever the samples are. Larger exponents give smaller eccentricities, and exponent p gives at most (n - 1)^(1/p) times the value for exponent inf. For exponents at least one, eccentricities of two of n samples differ by at most n^(1/p) times their distance, and changing all distances by at most epsilon changes eccentricities by at most n^(1/p) epsilon (for exponent inf: by the distance, by epsilon). No two samples are further apart than twice any eccentricity, and for exponent inf the largest eccentricity is the diameter; an eccentricity is zero exactly if all samples coincide. Additional samples add the p-th powers of the distances to them to the p-th powers of eccentricities. A Mapper pipeline with Eccentricity as filter and a clusterer which looks at distances only, up to their unit, gives the same graph for all arrangements of the samples with proportional distances (moved, rotated, in other units, in a space of another dimension), and the same graph from the distance matrix with metric=\"precomputed\".", "quantifier": "all collections of samples, all metrics, all positive exponents, all scales and perturbations, all additional samples; all covers (one-dimensional or cubical, uniform or balanced), clusterers, schedules and parameters of the graph", "why_tests_cant": "Invariances and inequalities hold for all samples and metrics; tests compute eccentricities of a few matrices and never compare graphs of transformed data.", "anchors": ["gtda/mapper/filter.py:Eccentricity.transform", "gtda/mapper/pipeline.py:make_mapper_pipeline", "gtda/mapper/cluster.py:ParallelClustering.fit"]}
{"id": "C151", "title": "Geodesic distances in graphs of nearest neighbours", "statement": "KNeighborsGraph(n_neighbors=k, mode=\"distance\") followed by GraphGeodesicDistance never gives less than the distance in the metric, gives exactly that distance between a point and those which fewer than k others are as near as (seen from either point unless directed), is symmetric unless directed, and gives finite distances from each point to at least k others; with k = n - 1 it gives the distance matrix. Without ties among distances from a point the result depends on distances only: in other units, or for other arrangements with proportional distances, geodesic distances change by the same factor (not at all if distances are not used as weights), and more neighbours never enlarge a distance. With mode=\"connectivity\" or unweighted=True the results are whole numbers or infinite, 0 exactly on the diagonal and, without ties, 1 exactly for neighbours.", "quantifier": "all clouds of more than k points, all metrics, all numbers of neighbours, all correct neighbour searches and shortest path methods, directed and undirected, weighted and unweighted", "why_tests_cant": "The relation to the metric must hold for all clouds, metrics and numbers of neighbours; tests of the composition do not exist in the library, and those of its parts use fixed graphs.", "anchors": ["gtda/graphs/kneighbors.py:KNeighborsGraph.transform", "gtda/graphs/geodesic_distance.py:GraphGeodesicDistance.transform"]}
{"id": "C152", "title": "What a Takens embedding of a series keeps", "statement": "Takens embeddings of univariate series (dimension d, delay tau, any stride, ensure_last_value on or off): applying a function to the values applies it to the coordinates. The reversed series, embedded from the other end, gives the same points in reversed order with reversed coordinates. With stride 1, a series of at least d tau values is determined by its embedding (shorter ones are not). Points of a series with period T repeat whenever the number of strides is a multiple of T, at most T / gcd(T, stride) are different, and with stride 1 repeating points of a series of at least d tau + T values mean a periodic series. Errors of at most epsilon move coordinates by at most epsilon. A linear recurrence among values tau apart puts all points in a hyperplane, and with stride 1 conversely; points of a sampled sine wave lie on an ellipse in each pair of successive coordinates and in a plane. The permutation entropy of the embedding does not change under increasing functions of the values and, if no point has equal coordinates, under decreasing functions and reversal of time (with equal coordinates it does); for period T it is at most log2(T / gcd(T, stride)).", "quantifier": "all series, functions, delays, dimensions, strides, periods, recurrences, amplitudes, frequencies and phases, numbers of jobs", "why_tests_cant": "Tests embed a few short series; these laws relate the embeddings of all series to those of transformed series.", "anchors": ["gtda/time_series/_utils.py:_time_delay_embedding", "gtda/time_series/embedding.py:SingleTakensEmbedding.transform", "gtda/time_series/embedding.py:TakensEmbedding.transform", "gtda/time_series/features.py:PermutationEntropy.transform"]}
{"id": "C153", "title": "Transition graphs as trajectories, and their geodesic distances", "statement": "TransitionGraph gives a sparse matrix with one row per state, in increasing order. The sum of the row of a state is the number of departures from it in the series, the sum of its column the number of arrivals; these are equal except that the first state has one more departure and the last one more arrival (if they differ). Staying longer in a state changes nothing. GraphGeodesicDistance accepts the matrix: with unweighted=True distances are whole numbers or infinite, 1 exactly for states that follow each other (in either order, unless directed=True), and from the state at one time to the state at a later time at most the number of changes in between. Weighted or not, the latter distances are finite, and all are unless directed=True. By default the entries, counts of transitions, are taken for lengths, so frequent transitions are long (which is shown by a witness).", "quantifier": "all series, state functions, correct shortest-path engines, parameters of GraphGeodesicDistance", "why_tests_cant": "Tests run both transformers on a few short series, not on all series and functions; counts along trajectories are statements about histories of any length.", "anchors": ["gtda/graphs/transition.py:TransitionGraph.transform", "gtda/graphs/geodesic_distance.py:GraphGeodesicDistance.transform"]}
{"id": "C154", "title": "Image filtrations of unions, intersections, padded images and shapes near each other", "statement": "Images of zeros and ones are sets of active pixels. The dilation filtration of a union is the pixelwise minimum of both dilation filtrations, the erosion filtration of an intersection that of both erosion filtrations (erosions of unions can exceed both, which is shown by a witness). Height and radial filtrations turn unions into minima and intersections into maxima; densities of union and intersection add up to the sum of both densities. The image can be read off: active pixels are the zeros of the dilation filtration, inactive ones the zeros of the erosion filtration and the negative values of the signed distance. Without a limit on iterations, if each active pixel of one image has an active one of the other at grid distance at most epsilon, both ways, dilation filtrations differ by at most epsilon; likewise erosions for inactive pixels; if both hold, signed distances differ by at most 2 epsilon - 1 (not at all for epsilon 0). A border of inactive pixels added by Padder changes no value of the dilation filtration but max_value_, a border of active pixels none of the erosion filtration; with an inactive border erosion values become the minimum of the values before and the distances to just outside of each edge. What a dilation reaches in k steps, eroded k steps, contains the shape; what an erosion leaves after k steps, dilated k steps, is contained in it.", "quantifier": "all binary images and collections containing them, shapes, numbers of iterations, directions, centres, radii, metrics, paddings, distances and numbers of steps and jobs", "why_tests_cant": "Tests compare filtrations of a few fixed images with stored arrays; these laws relate filtrations of all pairs of images.", "anchors": ["gtda/images/filtrations.py:DilationFiltration.transform", "gtda/images/filtrations.py:ErosionFiltration.transform", "gtda/images/filtrations.py:SignedDistanceFiltration.transform", "gtda/images/filtrations.py:HeightFiltration.transform", "gtda/images/filtrations.py:RadialFiltration.transform", "gtda/images/filtrations.py:DensityFiltration.transform", "gtda/images/preprocessing.py:Padder.transform"]}
{"id": "C155", "title": "Sample weights given to Pipeline.score belong to the samples that are scored", "statement": "Pipeline.score(X, y, sample_weight=w) weighs each sample reaching the final estimator with the weight given for its own time. Without weights it is the score without this argument. If no step before the final one resamples, the final estimator receives targets and weights as given, and the transformed data. In a pipeline of time-series steps the samples and targets that reach the final estimator are those of increasing times, but all weights are handed over unchanged: if nothing is dropped sample i is that of time i and its weight is in place; if samples are dropped the claim is false (a witness is given): an estimator that wants as many weights as samples raises ValueError, another one uses weights of other times. Weights resampled as targets by the steps before the final one are those of the times of the samples.", "quantifier": "all pipelines of time-series steps (and all pipelines without resampling steps), final estimators, data, targets and weights", "why_tests_cant": "No test calls score of a pipeline with weights and a step that drops samples; the alignment has to hold for all chains of steps and lengths.", "anchors": ["gtda/pipeline.py:Pipeline.score", "gtda/base.py:TransformerResamplerMixin.transform_resample", "gtda/time_series/embedding.py:SlidingWindow.resample"]}
{"id": "C156", "title": "What Derivative keeps of a curve, and how it responds to small changes", "statement": "The derivative of order k of a curve is zero everywhere exactly if the curve is a polynomial of degree less than k in the number of the bin; two curves with as many bins have the same derivative of order k exactly if they differ by such a polynomial, and are equal if moreover their first k values agree. A curve read backwards has the derivative read backwards, multiplied by (-1)^k. The values of the first derivative add up to the last value minus the first; it is nowhere negative (everywhere positive) exactly if the curve never falls (always rises). Curves that differ by at most epsilon in each bin have derivatives of order k that differ by at most 2^k epsilon, and this bound is attained for each order and number of bins.", "quantifier": "all collections of curves, samples, channels, orders, numbers of bins and jobs, and all epsilon", "why_tests_cant": "Tests compare derivatives of a few fixed curves; these laws characterise which curves have the same derivative and bound its changes for all curves.", "anchors": ["gtda/curves/preprocessing.py:Derivative.fit", "gtda/curves/preprocessing.py:Derivative.transform"]}
{"id": "C157", "title": "Derivatives of Betti curves and landscapes", "statement": "The first derivative of a Betti curve between two neighbouring sampled values is the number of features born in between (after the first, not after the second) minus the number of features that die in between; diagonal points do not count. For a sampling in increasing order its absolute values add up to at most twice the number of features. The first derivative of each layer of a landscape is at most the distance of the two sampled values.", "quantifier": "all collections of diagrams, homology dimensions, samplings, numbers of layers, bins and jobs", "why_tests_cant": "No test combines Derivative with the curves of diagrams; the count of births and deaths has to be right for all diagrams and samplings, also if several events fall between or on sampled values.", "anchors": ["gtda/curves/preprocessing.py:Derivative.transform", "gtda/diagrams/representations.py:BettiCurve.transform", "gtda/diagrams/representations.py:PersistenceLandscape.transform"]}
{"id": "C158", "title": "How silhouettes depend on the sampled value and on the power", "statement": "For diagrams with an off-diagonal point in each homology dimension: as a function of the sampled value a silhouette is 1-Lipschitz and nowhere exceeds half the longest lifetime. As the power grows, each of its values tends to the average of the tent functions of the points with the longest lifetime (the internal rescaling above power 8 does not spoil this); as the power tends to zero, to the average of the tent functions of all off-diagonal points, so that diagonal points do not count.", "quantifier": "all collections of diagrams, homology dimensions, samplings, numbers of jobs, powers and tolerances", "why_tests_cant": "Limits in the power and bounds for all sampled values are not settled by finitely many evaluations.", "anchors": ["gtda/diagrams/_metrics.py:silhouettes", "gtda/diagrams/representations.py:Silhouette.transform"]}
{"id": "C159", "title": "When entropies are as small or as large as possible", "statement": "PersistenceEntropy (not normalised) of a diagram with an off-diagonal point in a homology dimension is zero exactly if there is one such point, equals log2 of their number exactly if all of them have the same lifetime, and strictly grows if a point is replaced by two whose lifetimes add up to its lifetime. PermutationEntropy of a window is log2 of its number of rows exactly if no two rows have the same order pattern. The Mapper filter Entropy of a row with a non-zero entry is log2 of the number of its non-zero entries exactly if these have the same absolute value.", "quantifier": "all collections of diagrams, windows and point clouds, homology dimensions and numbers of jobs", "why_tests_cant": "Which inputs attain the extreme values is a statement on all inputs; tests show some that do.", "anchors": ["gtda/diagrams/features.py:PersistenceEntropy.transform", "gtda/time_series/features.py:PermutationEntropy.transform", "gtda/mapper/filter.py:Entropy.transform"]}
{"id": "C160", "title": "What ComplexPolynomial keeps of a diagram", "statement": "For diagrams with an off-diagonal point in each homology dimension and at least as many coefficients as off-diagonal points: with polynomial types R and S, two diagrams have the same output exactly if they have the same off-diagonal points with multiplicities, in each homology dimension (zero-padding does not confuse diagrams with different numbers of points); with each type the output determines the lifetimes. With type T it does not determine the points, however many coefficients are kept, and with type R it does not if there are fewer coefficients than points (both by witnesses). With type R the first coefficient of each homology dimension is minus the sum of births (real part) and minus the sum of deaths (imaginary part) of its off-diagonal points.", "quantifier": "all collections of diagrams, homology dimensions, numbers of coefficients and polynomial types", "why_tests_cant": "That no two different diagrams have the same output is a statement on all pairs of diagrams.", "anchors": ["gtda/diagrams/features.py:ComplexPolynomial.transform", "gtda/diagrams/_features.py:R_polynomial", "gtda/diagrams/_features.py:S_polynomial", "gtda/diagrams/_features.py:T_polynomial"]}
{"id": "C161", "title": "The named features of curves", "statement": "StandardFeatures with the name of one of the functions argmax, argmin, min, max, mean, std, median, average, without parameters, returns for each curve and channel the number of that name (first position of the largest or smallest value; half way between the two middle values for the median). Mean, average and median are between minimum and maximum, the standard deviation is at most half their difference. Curves that differ by at most epsilon in each bin have features that differ by at most epsilon, but for argmax and argmin: a change however small can move the position of the maximum from the first to the last bin. If values a are replaced by c a + e, mean, average and median change alike, the standard deviation is multiplied by |c|, maximum and minimum change alike with the same positions if c is positive and are exchanged if c is negative.", "quantifier": "all collections of curves with at least one bin, all the named functions, all epsilon, c and e", "why_tests_cant": "Bounds and equivariance for all curves are not settled by examples.", "anchors": ["gtda/curves/features.py:StandardFeatures.fit", "gtda/curves/features.py:StandardFeatures.transform", "gtda/curves/_functions.py:_implemented_function_recipes"]}
{"id": "C162", "title": "Features of landscapes and Betti curves", "statement": "StandardFeatures after PersistenceLandscape: each of min, max, mean, std, median and average of each layer changes by at most the bottleneck distance of the diagrams in that homology dimension when a diagram is replaced by another one. Maximum, minimum, mean and average of a layer are between 0 and half the longest lifetime in the dimension, and at most those of the layer before. StandardFeatures after BettiCurve: the mean, times the number of sampled values, is the sum over the points of the numbers of sampled values at which they are alive, and the maximum is at most the number of points with positive lifetime.", "quantifier": "all collections of diagrams with equally many points per dimension, all numbers of layers and jobs, all non-empty samplings", "why_tests_cant": "Stability and bounds for all pairs of diagrams and samplings are not settled by examples.", "anchors": ["gtda/curves/features.py:StandardFeatures.transform", "gtda/curves/_functions.py:_implemented_function_recipes", "gtda/diagrams/representations.py:PersistenceLandscape.transform", "gtda/diagrams/representations.py:BettiCurve.transform"]}
