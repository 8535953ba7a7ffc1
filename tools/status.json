{
 "C02": [
  "partial",
  "True for size >= 2 (C02_sliding_resample_aligned_partial); false at size = 1, where resample returns [] (C02_refuted)."
 ],
 "C05": [
  "partial",
  "True for dimension >= 2; false at dimension = 1, where resample returns [] (C05_refuted)."
 ],
 "C06": [
  "proved",
  "3D collections (n_samples, n_variables, n_timestamps); tensor-valued series are not modelled."
 ],
 "C07": [
  "proved",
  "Scores are parameters. max_dimension = 1 shown to raise ValueError."
 ],
 "C09": [
  "proved",
  "Ascending percentile lists; unsorted lists refuted by witness, empty list shown to raise IndexError."
 ],
 "C10": [
  "proved",
  "The documented output length n // period is refuted; the true length is the ceiling."
 ],
 "C42": [
  "partial",
  "True for uniform covers, for fit-only histories and (in full) for CubicalCover; false for balanced OneDimensionalCover after fit then fit_transform (C42_refuted_stale_limits)."
 ],
 "C48": [
  "partial",
  "Attributes of an uncontracted survivor and of edges are proved kept (C48_attributes_partial); simplicity and elements of the surviving node are refuted by witnesses."
 ],
 "C19": [
  "partial",
  "True for collections with equal counts per dimension and for at most two diagrams; false in general (C19_refuted_three_diagrams)."
 ],
 "C20": [
  "proved",
  "Engine outputs are arbitrary inputs; NaN is replaced by 0 and -inf by the lowest float, as numpy does."
 ],
 "C22": [
  "proved",
  "For homology_dimensions without repetitions (an example shows repeated dimensions are output twice)."
 ],
 "C29": [
  "partial",
  "True whenever a weight is positive or power is at most 8; a diagram of trivial points with larger power gives NaN (C29_refuted_trivial)."
 ],
 "C31": [
  "partial",
  "True when the fitted lifetime sampling starts at 0, i.e. training data has a diagonal point in each dimension (C31_order_padding_partial); false in general (C31_refuted)."
 ],
 "C34": [
  "partial",
  "Pseudometrics for p >= 1 and order >= 1 for Betti, heat, image, landscape metrics and (where defined) silhouettes; order < 1, which is allowed, violates the triangle inequality (C34_refuted_order). Bottleneck and Wasserstein distances are covered by C98 under a contract for the engine."
 ],
 "C36": [
  "partial",
  "All claims for bottleneck, Wasserstein, Betti, heat, landscape; for persistence images adding diagonal points can change the amplitude (C36_refuted_image); silhouettes where defined."
 ],
 "C39": [
  "partial",
  "True whenever every diagram has an off-diagonal point in each dimension; with only diagonal points transform raises TypeError because np.poly([]) is a number (C39_refuted_trivial)."
 ],
 "C12": [
  "proved",
  "Ties: np.argsort's default algorithm is modelled as stable."
 ],
 "C13": [
  "proved",
  "np.cov and np.corrcoef are modelled in exact arithmetic; the clipping to [-1, 1] is shown to be the identity."
 ],
 "C14": [
  "proved",
  "Steps obey the laws of the mixins (proved for classes built on them). A final step with transform but no fit_transform makes fit_transform_resample return None (C14_refuted_no_fit_transform)."
 ],
 "C15": [
  "proved",
  "Step names ending with an underscore lose their parameters to another step (C15_refuted_trailing_underscore)."
 ],
 "C83": [
  "partial",
  "False as documented: the result does not depend on the argument (C83_refuted_*). True when targets are passed as second argument (C83_resample_partial)."
 ],
 "C84": [
  "partial",
  "False for steps whose inverse_transform takes one argument, as Scaler's does (C84_refuted_inverse); true for steps that accept a second argument (C84_inverse_partial)."
 ],
 "C56": [
  "partial",
  "Involution, order reversal, negation and non-negativity proved; false as stated for max_value=True on greyscale images (collapsed to a test for zero) and max_value=False on boolean images (TypeError)."
 ],
 "C57": [
  "partial",
  "Proved for padding values representable in the dtype of the images; false for a fractional value on integer images (the border is truncated)."
 ],
 "C49": [
  "partial",
  "The number of clusters before the first gap is characterised; the claim of at least one cluster, of one cluster for coinciding samples and of max_fraction=None are refuted."
 ],
 "C54": [
  "partial",
  "Proved for contract_nodes=False; with contract_nodes=True a sample can be in no node (refuted)."
 ],
 "C85": [
  "partial",
  "Callables with a parameter axis but no keepdims always raise (refuted); proved for all others and for Projection."
 ],
 "C66": [
  "proved",
  "Dense form of the sparse adjacency matrix; C66_transitions says what entries count, C66_refuted_undirected_zero_one refutes the docstring's undirected zero-one matrix."
 ],
 "C67": [
  "partial",
  "False as stated: C67_refuted_func_params shows func_params never matters, C67_refuted_witness gives a concrete case."
 ],
 "C68": [
  "proved",
  "For matrices of real numbers; the docstring's k-th largest is refuted by C68_refuted_kth_largest."
 ],
 "C69": [
  "partial",
  "Proved for point clouds with every metric (C69_points) and for metric='precomputed' where the factor and matrix are of compatible types; the symmetric reading and integer matrices are refuted."
 ],
 "C70": [
  "proved",
  "Relative to a shortest path engine correct on its documented domain (a correct engine exists: correct_engine_exists); default of directed refuted."
 ],
 "C71": [
  "partial",
  "Proved when every point has a Delaunay neighbour; refuted in general."
 ],
 "C72": [
  "proved",
  "For any order of the annulus points."
 ],
 "C73": [
  "partial",
  "Proved for KNeighbors when the data sets are large enough and for Radius always; refuted in general."
 ],
 "C74": [
  "partial",
  "Proved for cloneable transformers and any execution order of the jobs; refuted for objects without get_params."
 ],
 "C86": [
  "proved",
  "For engines correct on their domain and distances that exist."
 ],
 "C87": [
  "partial",
  "False as stated: refuted for all states and arguments, and by concrete witnesses."
 ],
 "C75": [
  "partial",
  "Proved for declarations without nested sequences; the code never checks elements of nested sequences (C75_refuted_nested_sequences) nor the declarations keyed by the type object (C75_refuted_n_neighbors_type)."
 ],
 "C76": [
  "partial",
  "intersects is characterised for non-empty intervals only: with an empty interval the claim is false (C76_refuted_intersects_empty); the documented arithmetic with negative or zero factors or a number on the left is refuted."
 ],
 "C77": [
  "partial",
  "False as stated: unpickling raises TypeError for every interval (C77_refuted_pickling). C77_keyword_would_do proves the round trip for the keyword call the class needs."
 ],
 "C78": [
  "proved",
  "All curves and orders."
 ],
 "C79": [
  "partial",
  "Row layout proved for functions whose output length does not depend on the curve; the rest of the statement is refuted by witnesses."
 ],
 "C80": [
  "proved",
  "All engine outputs (however short or long) and all requested dimensions, end to end through the common postprocessing."
 ],
 "C88": [
  "partial",
  "Proved for all engines, batches, orders and schedules; the irrelevance of repeated dimensions is refuted."
 ],
 "C89": [
  "proved",
  "All dictionaries with distinct keys; the exception for unknown names is KeyError."
 ],
 "C90": [
  "partial",
  "Everything except the attribute periodic_dimensions_, whose documented shape is refuted."
 ],
 "C91": [
  "partial",
  "Proved under the engine contract that the earliest born essential class is listed where the code looks; refuted in general."
 ],
 "C53": [
  "proved",
  "literal_eval of rgb(...) colours is a parameter; floats are exact numbers."
 ],
 "C92": [
  "partial",
  "Proved when later columns vary or the first is constant; refuted for constant later columns."
 ],
 "C93": [
  "proved",
  "Printing of numbers is a parameter; printed statistics contain no blank."
 ],
 "C94": [
  "proved",
  "Exact numbers; floating point rounding is not modelled."
 ],
 "C51": [
  "proved",
  "Two parts of the documented behaviour are refuted (C51_refuted_n_jobs, C51_refuted_example); the other theorems hold for all pipelines and names."
 ],
 "C95": [
  "partial",
  "Proved with the restrictions in the statement; without them refuted (C95_refuted_verbose, C95_refuted_filter)."
 ],
 "C96": [
  "partial",
  "C96_list and C96_array decide acceptance, result and warning; C96_slices shows that an array and the list of its entries are treated alike for entries with rows and columns, C96_refuted_no_points that they are not otherwise; C96_other_errors gives the IndexError and TypeError cases. Conversion of data types and mixtures of sparse and dense matrices of one shape are not covered."
 ],
 "C97": [
  "proved",
  "Lists and arrays decided exactly; C97_no_axes records the TypeError."
 ],
 "C98": [
  "proved",
  "The engines (Hera) are parameters with the contract WithinError; everything else is proved, including that the minimum is attained."
 ],
 "C99": [
  "proved",
  "For all diagrams (bottleneck: with at least one point per dimension, else numpy raises)."
 ],
 "C100": [
  "proved",
  "Real-valued model; second part for an exact engine."
 ],
 "C101": [
  "partial",
  "axes claim false when all classes never die and are born together (C101_refuted_one_birth); everything else proved"
 ],
 "C102": [
  "partial",
  "false for sample=-1 (C102_refuted_minus_one)"
 ],
 "C103": [
  "proved",
  ""
 ],
 "C104": [
  "partial",
  "false for dimensions other than 0..n-1 and for the default samplings"
 ],
 "C105": [
  "partial",
  "false for chosen channels and for abscissae"
 ],
 "C106": [
  "proved",
  "smoothing filter is a parameter"
 ],
 "C107": [
  "partial",
  "false for clouds with one coordinate"
 ],
 "C108": [
  "partial",
  "C108_params, C108_displayed, C108_widgets and C108_clone hold for every history; C108_valid assumes that plotly_params does not replace data of the traces and that the first 3D plot has coloured hover labels; refuted where drawing fails after fitting (C108_refuted_stale), for 3D plots with nodes of one colour (C108_refuted_constant, C108_refuted_white) and for trace data set by plotly_params (C108_refuted_custom)."
 ],
 "C109": [
  "partial",
  "Proved for all metrics (C109_cloud) and for precomputed matrices whose diagonal entries are least in their rows (C109_precomputed_partial); for other precomputed matrices refuted (C109_refuted_diagonal). Graphs of sparse input are an opaque engine."
 ],
 "C110": [
  "partial",
  "The choice, its failure and its invariance are proved for every correct search of neighbours. The last clause is false of the code and refuted: the code compares the value at time i + (2 d - 1) tau with that of the neighbour of point i + d tau, so that for a ramp, in which no pair of points is a false pair, every point is counted (C110_refuted_ramp). What is counted instead is stated in C110_counts for all strides. C110_information states what the mutual information is."
 ],
 "C111": [
  "partial",
  "Proved for callable statistics (C111_plot) and for arrays with one axis whenever color_features can be applied (C111_array_partial). The clause that color_features is ignored for arrays is false of the code (C111_refuted_ignored; the examples also show that labels of a dataframe are put on columns of the array), and transformers whose output is a dataframe fail with AttributeError (C111_refuted_frame)."
 ],
 "C112": [
  "proved",
  "Layout engines and plotly are parameters or left out; what is proved is about the coordinate lists handed to plotly, read as plotly documents them (lines between consecutive points, interrupted at None)."
 ],
 "C113": [
  "partial",
  "Proved for all collections, histories and numbers of jobs. A failed fit can replace the homology dimensions of a fitted object (refuted with a witness, partial theorem says exactly what changes), n_bins=1 gives NaN heat kernels (refuted), unequal numbers of points raise or not depending on n_jobs (refuted)."
 ],
 "C114": [
  "partial",
  "Exact description of fit and transform of PairwiseDistance and Amplitude for all metrics, with validation and histories, proved. False parts refuted with witnesses: a failed fit may change what transform computes (rejected parameters used, other dimensions, TypeError), AttributeError instead of NotFittedError, n_bins=1 gives NaN amplitudes. Vector metrics are stated for n_bins of at least 2."
 ],
 "C115": [
  "partial",
  "Scale, results, round trip for positive scales, units, idempotence, histories and failures proved. False parts refuted with witnesses: function=None accepted but TypeError in fit, negative and zero scales, AttributeError instead of NotFittedError."
 ],
 "C116": [
  "partial",
  "Results, training data, order of execution and histories proved for all seven classes; parameter changes after fit and failed fits hold only under conditions (C116_set_after_fit_partial, C116_failed_fit_partial) and are refuted in general with witnesses."
 ],
 "C117": [
  "proved",
  "joblib.Memory is modelled as a map that compares arguments exactly and never expires entries (hash collisions and deleted cache files are outside the model). That transformers forget earlier fits (fit of a clone equals a refit) is an assumption on the classes, shown to hold for a concrete one; without memory the objects must not be shared between steps, for which a witness is given."
 ],
 "C118": [
  "partial",
  "False of resample (C118_refuted_resample): a nested pipeline ignores the targets it is given; and of inner pipelines that end with a step without fit_transform (C118_refuted_incomplete). The rest is proved, for pipelines as constructed, after fitting (C118_fitted) and after any history of fits, failed ones included (C118_history); names of inner pipelines must not end with an underscore (see C15)."
 ],
 "C119": [
  "partial",
  "False of resample, which needs the method of all steps although it is there if the final step has it (C119_refuted_resample; what is true of it: C119_resample_partial); the rest is proved."
 ],
 "C120": [
  "partial",
  "proved in full except that children_, n_leaves_ and distances_ stay from an earlier fit when the new data is a single sample, and that linkage is not checked then (C120_refuted_\u2026)"
 ],
 "C121": [
  "partial",
  "proved in full except the last sentence, which is false of CubicalCover after a change of kind (C121_refuted_attribute_error)"
 ],
 "C122": [
  "partial",
  "Proved for the eleven classes that only set a flag, for ImageToPointCloud as far as accepted fits go, and for KNeighborsGraph as long as parameter changes keep the kind of metric. False otherwise, refuted with witnesses: a refused fit of KNeighborsGraph changes what transform accepts, and a change of metric is followed only in part; TransitionGraph ignores changes of func until the next fit; an ImageToPointCloud whose fit raised counts as fitted; Projection.fit refuses data frames for columns that are not selected."
 ],
 "C123": [
  "partial",
  "Unions, identity, rows, collections and nerves proved for every schedule and history. False: fit_transform of an extended class is the wrapped class's own fit_transform if it has one, not fit followed by the method (C123_refuted_own_fit_transform, e.g. KMeans with predict); a union whose steps are all dropped returns an array and not a list (C123_refuted_union_list). Collections: for cloneable transformers, the others are refuted in C74."
 ],
 "C124": [
  "partial",
  "Proved for PersistenceEntropy, NumberOfPoints and Filtering. ComplexPolynomial: proved unless a later fit fails half way or the list passed as n_coefficients is changed; both are refuted (C124_refuted_failed_fit: homology_dimensions_ is replaced before the ValueError, and transform then raises IndexError; C124_refuted_shared_list: n_coefficients_ is the caller's list)."
 ],
 "C125": [
  "partial",
  "False in general: the two searches of KNeighborsLocalVietorisRips need not agree about ties, a metric set after fit is combined with the neighbourhoods of the old one, and a failed fit replaces the transformer of persistent homology (refuted with witnesses). Proved for radii after any history, for numbers of neighbours without ties and with large enough training sets (small ones: C73); a single training point is refused by KNeighborsLocalVietorisRips. Searches, pdist and the engine are parameters with their documented contracts."
 ],
 "C126": [
  "partial",
  "Proved for parameter changes that keep size and function (Labeller) and for dimension at least two (SingleTakensEmbedding), after any history. False otherwise: changing size after fit or a refused second fit makes the two methods return different numbers of entries, and a changed function is compared with old thresholds (refuted with witnesses)."
 ],
 "C127": [
  "partial",
  "Proved for midpoint, length, open sides, text, hashes, and for floor division of intervals closed on both sides by positive numbers. False otherwise: floor division of open or unbounded intervals or by negative numbers, and intervals with the same value are not equal although they have the same hash (refuted)."
 ],
 "C128": [
  "partial",
  "Proved without contract_nodes for the order of the samples, with and without it for the other parts. With contract_nodes=True the graph depends on the order of the samples (refuted with a witness); a uniform cover reacts to increasing functions that are not affine (witness)."
 ],
 "C129": [
  "partial",
  "Acceptance of fit, NotFittedError before any fit, and determination of transform by the last accepted fit are proved over all histories for Binarizer, Inverter, Padder and the three filtrations by dilation; for height, radial and density filtrations over all histories before an accepted fit and all harmless ones after it. Refuted: after a refused fit transform may raise AttributeError instead of NotFittedError; a refused fit can spoil a fitted height, radial or density filtration (the radial one silently gives wrong values); n_iterations=None does not reach all pixels of images larger than those of fit; radial filtrations broadcast along training axes of length 1; density filtrations fitted in 2D count within slices only in 3D."
 ],
 "C130": [
  "proved",
  "Where results do depend on the unit or the origin is stated by the C130_refuted_ theorems. Heat kernels and images: the smoothing filter may be any function of sigma divided by the step."
 ],
 "C131": [
  "partial",
  "All plot methods for heat maps, clouds and filtered diagrams, and fit_transform_plot. Refuted for validation: values of origin other than 'lower' are taken for 'upper' and unknown keys of plotly_params are ignored without an error."
 ],
 "C132": [
  "proved",
  "Reflections and exchanges of neighbouring axes are proved to be symmetries; other symmetries are compositions of these. C59 and C60 now give the exact max_value_."
 ],
 "C133": [
  "partial",
  "False for several plots: C133_refuted_own_log, C133_refuted_replot, C133_refuted_shared; C133_own_log_partial is for sessions in which values are entered in one plot only and the front end empties the log in time, C133_log describes the logs in general."
 ],
 "C134": [
  "partial",
  "The docstring is proved for Returns sections of one paragraph and sections occurring once; refuted for several paragraphs (C134_refuted_returns) and for standard docstrings with an empty section (C134_refuted_empty). The standard docstring of scikit-learn and the word characters are parameters."
 ],
 "C135": [
  "partial",
  "Proved in full except that the law about resampling before an embedding needs a number of samples that is one more than a multiple of the time delay, and that windows move when the number of later samples is no multiple of the stride (C135_refuted_\u2026)."
 ],
 "C136": [
  "partial",
  "False in part, with witnesses: a maximum learnt from padded images includes the padding value, so the two orders of Padder and Inverter differ when it exceeds all pixels (C136_refuted_pad_invert); binarizing twice is not binarizing once for negative images with threshold 1 (C136_refuted_binarize_twice). The rest is proved for all collections."
 ],
 "C137": [
  "proved",
  ""
 ],
 "C138": [
  "partial",
  "False in parts: the array of no intervals has dimension 1 (C138_refuted_array), SparseRipsComplex raises for sparse=None (C138_refuted_sparse_none), and a refused call of persistence after a successful one makes the object unusable (C138_refuted_broken). Proved: constructors, history independence, stale Betti numbers of the last call, the calls of the transformers. Compiled code is a parameter."
 ],
 "C139": [
  "proved",
  ""
 ],
 "C140": [
  "proved",
  "Bottleneck amplitudes, Betti distances (p=1, up to the sampling), entropies and silhouettes of diagrams with off-diagonal points. The conditions are needed: Betti distances without the term for the sampling and entropies of diagonal diagrams jump (C140_refuted_betti, C140_refuted_entropy), as do numbers of points (C140_refuted_number). Landscapes are treated in C100."
 ],
 "C141": [
  "proved",
  "Distances for exact engines (parameters of the model)."
 ],
 "C142": [
  "proved",
  "Engine: any function correct on SciPy's documented domain; existence of shortest walks is proved for non-negative weights, for others it is a hypothesis (no negative cycles)."
 ],
 "C143": [
  "proved",
  "all stated parts are proved; the limits of the statement are proved as refutations with witnesses"
 ],
 "C144": [
  "proved",
  "Nesting of covers in the overlap, monotonicity of FirstSimpleGap and freedom from units of both gap clusterers; the false neighbours are refuted with witnesses. The tree builder and the cut are parameters."
 ],
 "C145": [
  "proved",
  "Explicit error bounds in the number of bins for all orders p; the claim for Betti curves with infinite p is refuted. Real arithmetic instead of floating point, as for C114."
 ],
 "C146": [
  "proved",
  "All stated parts are proved; the false neighbours are refuted with witnesses."
 ],
 "C147": [
  "proved",
  "Positivity of layers at births and equality of sup landscape and bottleneck amplitudes are false (C147_refuted_birth, C147_refuted_peak)"
 ],
 "C148": [
  "proved",
  "The identities and bounds are proved for uniform and balanced covers with overlap at most one half, as stated; the triangle for larger overlaps is C148_refuted_overlap. Scaler, filter function, preprocessing and clusterers are parameters."
 ],
 "C149": [
  "proved",
  "Over the reals, as C13; constant variables give NaN (0/0) in exact arithmetic. The triangle inequality without square roots is C149_refuted_triangle."
 ],
 "C150": [
  "proved",
  "For the model of Eccentricity over the reals with the metric as a parameter; clusterers are parameters which look at distances only."
 ],
 "C151": [
  "proved",
  "Neighbour searches and shortest path engines are parameters, correct on their documented domains; ties are left open by the search, hence the assumptions about ties."
 ],
 "C152": [
  "proved",
  "For univariate series; order patterns as in C12 (ties in order of position)."
 ],
 "C153": [
  "proved",
  "Shortest-path engines are a parameter: any engine that returns least lengths of walks. Weighted distances: C153_refuted_weighted shows what the default does."
 ],
 "C154": [
  "proved",
  "all clauses; erosions of unions: witness that they are not maxima"
 ],
 "C155": [
  "partial",
  "False if a step drops samples: C155_refuted_dropped_samples. C155_weights_partial says what the final estimator receives, C155_no_resampling covers all pipelines without resampling steps, C155_remedy how to obtain weights in place."
 ],
 "C156": [
  "proved",
  "All curves and orders."
 ],
 "C157": [
  "proved",
  "All diagrams with birth at most death and all samplings."
 ],
 "C158": [
  "proved",
  "Real arithmetic; all powers."
 ],
 "C159": [
  "proved",
  "Stated for exact real arithmetic."
 ],
 "C160": [
  "proved",
  "Exact real arithmetic. C160_refuted_T and C160_refuted_few are the witnesses for what is lost."
 ],
 "C161": [
  "proved",
  "Exact real arithmetic. np.average with weights is not modelled. C161_refuted_argmax is the witness for positions."
 ],
 "C162": [
  "proved",
  "Arithmetic is exact; bottleneck distance as in Spec/Matching (half the lifetime for a point matched with the diagonal)."
 ]
}