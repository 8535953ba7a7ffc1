{
 "C01": [
  "`_window_indices`, `transform`, `resample`, `slice_windows` on lists, with CPython slice semantics",
  "arithmetic of divmod, list extensionality; C02 refuted at size 1, partial for size >= 2"
 ],
 "C02": [
  "`_window_indices`, `transform`, `resample`, `slice_windows` on lists, with CPython slice semantics",
  "arithmetic of divmod, list extensionality; C02 refuted at size 1, partial for size >= 2"
 ],
 "C03": [
  "`_window_indices`, `transform`, `resample`, `slice_windows` on lists, with CPython slice semantics",
  "arithmetic of divmod, list extensionality; C02 refuted at size 1, partial for size >= 2"
 ],
 "C04": [
  "`_time_delay_embedding`, `SingleTakensEmbedding` methods",
  "same; C05 refuted at dimension 1"
 ],
 "C05": [
  "`_time_delay_embedding`, `SingleTakensEmbedding` methods",
  "same; C05 refuted at dimension 1"
 ],
 "C06": [
  "`_time_delay_embedding`, `SingleTakensEmbedding` methods",
  "same; C05 refuted at dimension 1"
 ],
 "C07": [
  "the argmin loops with scores as parameters",
  "induction on argmin"
 ],
 "C08": [
  "`Labeller.transform/resample`, thresholds and one-hot encoding",
  "list indexing, counting"
 ],
 "C09": [
  "`Labeller.transform/resample`, thresholds and one-hot encoding",
  "list indexing, counting"
 ],
 "C10": [
  "`Resampler`, `Stationarizer`",
  "list indexing, telescoping sums"
 ],
 "C11": [
  "`Resampler`, `Stationarizer`",
  "list indexing, telescoping sums"
 ],
 "C12": [
  "argsort patterns, `np.unique` counts, entropy over Real",
  "concavity of `-x log x`, permutation invariance"
 ],
 "C13": [
  "`np.corrcoef` over Real",
  "Cauchy-Schwarz"
 ],
 "C14": [
  "pipelines as lists of abstract steps with state",
  "induction over the list of steps"
 ],
 "C15": [
  "pipelines as lists of abstract steps with state",
  "induction over the list of steps"
 ],
 "C16": [
  "pipelines as lists of abstract steps with state",
  "induction over the list of steps"
 ],
 "C17": [
  "`sklearn.utils.gen_even_slices`, generic chunked map",
  "induction over slices"
 ],
 "C18": [
  "`check_diagrams`, `_subdiagrams`, `_postprocess_diagrams`, `_filter`, `_multirange`, `ForgetDimension`, `Scaler`",
  "list induction, extended values with inf and nan"
 ],
 "C19": [
  "`check_diagrams`, `_subdiagrams`, `_postprocess_diagrams`, `_filter`, `_multirange`, `ForgetDimension`, `Scaler`",
  "list induction, extended values with inf and nan"
 ],
 "C20": [
  "`check_diagrams`, `_subdiagrams`, `_postprocess_diagrams`, `_filter`, `_multirange`, `ForgetDimension`, `Scaler`",
  "list induction, extended values with inf and nan"
 ],
 "C21": [
  "`check_diagrams`, `_subdiagrams`, `_postprocess_diagrams`, `_filter`, `_multirange`, `ForgetDimension`, `Scaler`",
  "list induction, extended values with inf and nan"
 ],
 "C22": [
  "`check_diagrams`, `_subdiagrams`, `_postprocess_diagrams`, `_filter`, `_multirange`, `ForgetDimension`, `Scaler`",
  "list induction, extended values with inf and nan"
 ],
 "C23": [
  "`check_diagrams`, `_subdiagrams`, `_postprocess_diagrams`, `_filter`, `_multirange`, `ForgetDimension`, `Scaler`",
  "list induction, extended values with inf and nan"
 ],
 "C24": [
  "`check_diagrams`, `_subdiagrams`, `_postprocess_diagrams`, `_filter`, `_multirange`, `ForgetDimension`, `Scaler`",
  "list induction, extended values with inf and nan"
 ],
 "C25": [
  "`check_diagrams`, `_subdiagrams`, `_postprocess_diagrams`, `_filter`, `_multirange`, `ForgetDimension`, `Scaler`",
  "list induction, extended values with inf and nan"
 ],
 "C26": [
  "`check_diagrams`, `_subdiagrams`, `_postprocess_diagrams`, `_filter`, `_multirange`, `ForgetDimension`, `Scaler`",
  "list induction, extended values with inf and nan"
 ],
 "C27": [
  "`betti_curves`, `landscapes`, `silhouettes`, `heats`, `persistence_images`, `_bin`, distances, amplitudes and their parallel assembly",
  "counting, sorting, Minkowski inequality from Mathlib"
 ],
 "C28": [
  "`betti_curves`, `landscapes`, `silhouettes`, `heats`, `persistence_images`, `_bin`, distances, amplitudes and their parallel assembly",
  "counting, sorting, Minkowski inequality from Mathlib"
 ],
 "C29": [
  "`betti_curves`, `landscapes`, `silhouettes`, `heats`, `persistence_images`, `_bin`, distances, amplitudes and their parallel assembly",
  "counting, sorting, Minkowski inequality from Mathlib"
 ],
 "C30": [
  "`betti_curves`, `landscapes`, `silhouettes`, `heats`, `persistence_images`, `_bin`, distances, amplitudes and their parallel assembly",
  "counting, sorting, Minkowski inequality from Mathlib"
 ],
 "C31": [
  "`betti_curves`, `landscapes`, `silhouettes`, `heats`, `persistence_images`, `_bin`, distances, amplitudes and their parallel assembly",
  "counting, sorting, Minkowski inequality from Mathlib"
 ],
 "C32": [
  "`betti_curves`, `landscapes`, `silhouettes`, `heats`, `persistence_images`, `_bin`, distances, amplitudes and their parallel assembly",
  "counting, sorting, Minkowski inequality from Mathlib"
 ],
 "C33": [
  "`betti_curves`, `landscapes`, `silhouettes`, `heats`, `persistence_images`, `_bin`, distances, amplitudes and their parallel assembly",
  "counting, sorting, Minkowski inequality from Mathlib"
 ],
 "C34": [
  "`betti_curves`, `landscapes`, `silhouettes`, `heats`, `persistence_images`, `_bin`, distances, amplitudes and their parallel assembly",
  "counting, sorting, Minkowski inequality from Mathlib"
 ],
 "C35": [
  "`betti_curves`, `landscapes`, `silhouettes`, `heats`, `persistence_images`, `_bin`, distances, amplitudes and their parallel assembly",
  "counting, sorting, Minkowski inequality from Mathlib"
 ],
 "C36": [
  "`betti_curves`, `landscapes`, `silhouettes`, `heats`, `persistence_images`, `_bin`, distances, amplitudes and their parallel assembly",
  "counting, sorting, Minkowski inequality from Mathlib"
 ],
 "C37": [
  "entropy, counts, complex polynomial",
  "entropy bounds; product of linear factors"
 ],
 "C38": [
  "entropy, counts, complex polynomial",
  "entropy bounds; product of linear factors"
 ],
 "C39": [
  "entropy, counts, complex polynomial",
  "entropy bounds; product of linear factors"
 ],
 "C40": [
  "covers",
  "ordered field arithmetic; refinement between two implementations; call histories as a state machine"
 ],
 "C41": [
  "covers",
  "ordered field arithmetic; refinement between two implementations; call histories as a state machine"
 ],
 "C42": [
  "covers",
  "ordered field arithmetic; refinement between two implementations; call histories as a state machine"
 ],
 "C43": [
  "covers",
  "ordered field arithmetic; refinement between two implementations; call histories as a state machine"
 ],
 "C44": [
  "covers",
  "ordered field arithmetic; refinement between two implementations; call histories as a state machine"
 ],
 "C45": [
  "clustering labels, nerve, contraction",
  "list invariants; well-founded order for `_limit_mapping`; igraph contraction modelled from its documentation"
 ],
 "C46": [
  "clustering labels, nerve, contraction",
  "list invariants; well-founded order for `_limit_mapping`; igraph contraction modelled from its documentation"
 ],
 "C47": [
  "clustering labels, nerve, contraction",
  "list invariants; well-founded order for `_limit_mapping`; igraph contraction modelled from its documentation"
 ],
 "C48": [
  "clustering labels, nerve, contraction",
  "list invariants; well-founded order for `_limit_mapping`; igraph contraction modelled from its documentation"
 ],
 "C49": [
  "gap heuristics",
  "pigeonhole for termination"
 ],
 "C50": [
  "gap heuristics",
  "pigeonhole for termination"
 ],
 "C51": [
  "parameter routing as association lists over strings",
  "list/string lemmas"
 ],
 "C52": [
  "filters, colours, end-to-end composition",
  "Real inequalities, composition of earlier theorems"
 ],
 "C53": [
  "filters, colours, end-to-end composition",
  "Real inequalities, composition of earlier theorems"
 ],
 "C54": [
  "filters, colours, end-to-end composition",
  "Real inequalities, composition of earlier theorems"
 ],
 "C55": [
  "image preprocessing and filtrations",
  "pixelwise; breadth-first-search invariant for dilation; roll arithmetic for density"
 ],
 "C56": [
  "image preprocessing and filtrations",
  "pixelwise; breadth-first-search invariant for dilation; roll arithmetic for density"
 ],
 "C57": [
  "image preprocessing and filtrations",
  "pixelwise; breadth-first-search invariant for dilation; roll arithmetic for density"
 ],
 "C58": [
  "image preprocessing and filtrations",
  "pixelwise; breadth-first-search invariant for dilation; roll arithmetic for density"
 ],
 "C59": [
  "image preprocessing and filtrations",
  "pixelwise; breadth-first-search invariant for dilation; roll arithmetic for density"
 ],
 "C60": [
  "image preprocessing and filtrations",
  "pixelwise; breadth-first-search invariant for dilation; roll arithmetic for density"
 ],
 "C61": [
  "image preprocessing and filtrations",
  "pixelwise; breadth-first-search invariant for dilation; roll arithmetic for density"
 ],
 "C62": [
  "image preprocessing and filtrations",
  "pixelwise; breadth-first-search invariant for dilation; roll arithmetic for density"
 ],
 "C63": [
  "image preprocessing and filtrations",
  "pixelwise; breadth-first-search invariant for dilation; roll arithmetic for density"
 ],
 "C64": [
  "image preprocessing and filtrations",
  "pixelwise; breadth-first-search invariant for dilation; roll arithmetic for density"
 ],
 "C65": [
  "image preprocessing and filtrations",
  "pixelwise; breadth-first-search invariant for dilation; roll arithmetic for density"
 ],
 "C66": [
  "transition graphs, rescalings, geodesic method selection",
  "counting, Real identities, decision logic"
 ],
 "C67": [
  "transition graphs, rescalings, geodesic method selection",
  "counting, Real identities, decision logic"
 ],
 "C68": [
  "transition graphs, rescalings, geodesic method selection",
  "counting, Real identities, decision logic"
 ],
 "C69": [
  "transition graphs, rescalings, geodesic method selection",
  "counting, Real identities, decision logic"
 ],
 "C70": [
  "transition graphs, rescalings, geodesic method selection",
  "counting, Real identities, decision logic"
 ],
 "C71": [
  "CSR row reconstruction",
  "prefix sums"
 ],
 "C72": [
  "local homology cone matrix; refit histories",
  "indexing, state machine"
 ],
 "C73": [
  "local homology cone matrix; refit histories",
  "indexing, state machine"
 ],
 "C74": [
  "collection transformer",
  "map law"
 ],
 "C75": [
  "parameter validation, intervals",
  "decision logic outright"
 ],
 "C76": [
  "parameter validation, intervals",
  "decision logic outright"
 ],
 "C77": [
  "parameter validation, intervals",
  "decision logic outright"
 ],
 "C78": [
  "curves, flagser padding",
  "finite differences, list indexing"
 ],
 "C79": [
  "curves, flagser padding",
  "finite differences, list indexing"
 ],
 "C80": [
  "curves, flagser padding",
  "finite differences, list indexing"
 ],
 "C81": [
  "normalised entropy over Real with the NaN and zero-division cases",
  "entropy bounds, Real identities"
 ],
 "C82": [
  "time-series steps as pipeline steps on rows",
  "induction over the list of steps: output prefix depends on input prefix"
 ],
 "C83": [
  "`Pipeline.resample`",
  "unfolding of the loop; refutation by witness"
 ],
 "C84": [
  "`Pipeline.inverse_transform`",
  "induction over reversed steps; refutation for one-argument inverses"
 ],
 "C85": [
  "`Projection`, `transformer_from_callable_on_rows`",
  "row-wise map laws, decision logic on signatures"
 ],
 "C86": [
  "shortest walks as infimum over walks",
  "concatenation of walks"
 ],
 "C87": [
  "parameters against attributes of local homology transformers",
  "state machine"
 ],
 "C88": [
  "batches, orders of dimensions, schedules of persistence transformers",
  "permutation and map laws"
 ],
 "C89": [
  "merging of default and given weight parameters",
  "dictionaries as association lists"
 ],
 "C90": [
  "column-major layout of pixels",
  "bijection of index lists"
 ],
 "C91": [
  "removal of an essential class",
  "list surgery against a multiset specification"
 ],
 "C92": [
  "hover label colours",
  "interpolation in ordered fields"
 ],
 "C93": [
  "node sizes, statistics, menus",
  "list alignment"
 ],
 "C94": [
  "rounding to significant figures",
  "floor and logarithm bounds"
 ],
 "C95": [
  "tree of estimators with parameters",
  "mutual induction over trees"
 ],
 "C96": [
  "`check_point_clouds`",
  "decision logic, loop invariant with failure flag"
 ],
 "C97": [
  "`check_collection`",
  "decision logic"
 ],
 "C98": [
  "matchings between diagrams as specification; engines as parameters",
  "finite minimum over matchings, composition of matchings, Minkowski"
 ],
 "C99": [
  "amplitudes against matchings to the empty diagram",
  "evaluation of the only matching"
 ],
 "C100": [
  "landscapes against matchings",
  "rank functions of tents under matchings"
 ],
 "C101": [
  "`plot_diagram`",
  "list filtering, ordered field inequalities"
 ],
 "C102": [
  "`transform_plot`",
  "slices; padding removed by plotting"
 ],
 "C103": [
  "`plot` of curves and landscapes",
  "mapM laws, composition with C27"
 ],
 "C104": [
  "`plot_betti_curves`, `plot_betti_surfaces`",
  "mapM laws; refutations"
 ],
 "C105": [
  "`Derivative.plot`",
  "mapM laws; refutations"
 ],
 "C106": [
  "`plot` of rasters",
  "composition with the raster model"
 ],
 "C107": [
  "`plot_point_cloud`",
  "decision logic"
 ],
 "C108": [
  "Widgets, pushes of all displayed values through `set_params`, refit, redraw with the exceptions that interrupt it, and the validity flag (Model/MapperInteractive, on top of Model/MapperParams). Fitting, layout, colours and buttons are parameters.",
  "Setting one plain parameter by its nested name changes that parameter only (induction on the nesting); an invariant over histories of entered values; a second invariant for the figure."
 ],
 "C109": [
  "`KNeighborsGraph` over the model of `check_point_clouds`; scikit-learn's removal of the point itself is modelled, its neighbour search is a parameter with a contract, sparse input is an opaque engine",
  "the k+1 nearest minus the point itself (or the first one) are k nearest others, by cases on whether it is among them; iteration over the stacked array gives back the list; order independence by `scheduled_ok`"
 ],
 "C110": [
  "both scores (bins and mutual information over the reals, squares of distances instead of roots, a search of neighbours as parameter, numpy's rotations and slices) and the search that uses them",
  "rotations and slices reduced to an index formula; embeddings of a mapped series are mapped embeddings; squares of distances and the variance scale by the square of the factor; the last clause (what a false neighbour is) is refuted by the series 0, 1, 2, …: neighbours of other points are compared"
 ],
 "C111": [
  "`_infer_color_features_kind`, `_validate_color_kwargs`, `_calculate_graph_data` and the menu; containers as arrays with one or two axes, labelled rows or values; objects by the attributes the code looks at",
  "a separate specification of the features chosen (labelled columns); each branch produces a table of these columns; composed with the theorems of C93 on statistics, texts and menus. Two clauses are refuted: color_features is not ignored with an array as statistic, and transformers with dataframes as output fail"
 ],
 "C112": [
  "the coordinate lists of `_calculate_graph_data`, a layout engine as parameter",
  "reading the lists back as polylines interrupted at None gives the edges, by induction over them"
 ],
 "C113": [
  "the five classes as objects with parameters, homology dimensions, samplings and weights; fit as a state change that may fail half-way; transform with the number of jobs; Gaussian filter and powers as an engine",
  "fit is composed with the theorems on samplings and on the five functions of one dimension; the object after any history equals a new object fitted once (induction over the operations). Refuted with witnesses: a failed fit can change the dimensions of the output; NotFittedError after a failed first fit; n_bins=1 gives NaN images; whether unequal counts raise depends on n_jobs"
 ],
 "C114": [
  "the two classes as objects with parameters, effective metric parameters, homology dimensions and stored diagrams; validation of all parameters; fit as a state change that may fail half-way; transform with all seven metrics; norms, powers, filters and matchings as an engine",
  "the axes stored by fit are those of the corresponding vectorizer, so that the entries are compared with the output of the vectorizer model (C113); validation is decided key by key; histories by induction over the operations. Refuted with witnesses: rejected metric parameters are used by transform after the failed fit; the object may be unusable or return other dimensions after it; NotFittedError after a failed first fit; n_bins=1 gives NaN amplitudes"
 ],
 "C115": [
  "the class as an object with parameters, effective metric parameters, homology dimensions and scale; fit as a state change that may fail at seven places; transform and inverse_transform with check_diagrams; the function is arbitrary",
  "fit is compared step by step with the model of Amplitude (C114); amplitudes of matchings are homogeneous; failures and histories by induction over the operations. Refuted with witnesses: function=None is accepted and then raises TypeError; a negative scale makes inverse_transform raise; scale 0 gives non-finite entries; AttributeError instead of NotFittedError"
 ],
 "C116": [
  "the seven classes as one kind of object with parameters and the attributes that fit stores step by step; transform reads both; the exact arguments of every engine call; validation, checks and engines are arbitrary functions that may raise",
  "success of fit is characterised field by field; transform depends only on the attributes of its class and the parameters it reads; results from C20, flagser's alignment as in C80. Refuted with witnesses: a larger max_edge_length set after fit loses classes; cubical diagrams depend on training images; homology_dimensions=[] raises IndexError and leaves an object that returns empty diagrams; rejected weight_params are used; a rejected precomputed fit makes the object reject point clouds; AttributeError instead of NotFittedError"
 ],
 "C117": [
  "estimators are objects in a heap, steps refer to them; clones and loaded results are new objects; the cache is a list of calls and results, every executed call is recorded; joblib is modelled as exact comparison of arguments without expiry",
  "invariant over histories: every entry of the cache is the result of the call it stands for and stays; the loop with and without cache refines the loop of Verif.Model.Pipeline by induction over the steps; no_refit by a simulation of the two runs; a witness for shared objects"
 ],
 "C118": [
  "the methods of a pipeline, with their availability, as a record of methods like that of any estimator; its state is the list of the states of its steps",
  "fitting by splitting the loop over the steps (induction) and routing prefixed parameters in two stages; the other methods by splitting the chain of calls; witnesses for resample and for inner pipelines that end with a step without fit_transform"
 ],
 "C119": [
  "the properties that check the final step before returning a method; fit_predict; make_pipeline with scikit-learn's naming function",
  "induction over the chain of calls with the validation of the steps; names by their first hyphen and by counting occurrences; a witness for resample"
 ],
 "C120": [
  "objects with parameters and attributes that may be missing, fit as a function that returns the new object and the outcome; scikit-learn's tree builders and cut as parameters; clusterers given to ParallelClustering as classes with parameters and a state",
  "case analysis of fit, induction over histories, totality of the numbers of clusters from C49 and C50; a witness for the tree attributes that stay from an earlier fit when the new data is a single sample"
 ],
 "C121": [
  "objects with parameters of any type and stored intervals around the algorithms of C40 to C44; arrays of one or two dimensions; exceptions that name a feature",
  "case analysis of the checks, reduction to C40, C41 and C44 per column, induction over the columns (first bad column) and over histories; a witness for the AttributeError"
 ],
 "C122": [
  "objects with parameters and a flag, for eleven classes the checks of fit and the bodies of the methods around the functions of earlier claims; KNeighborsGraph, TransitionGraph and ImageToPointCloud with the further attributes they store",
  "induction over histories once for all classes, characterisation of check_array and check_collection, class by class the value of the body; witnesses for the three classes that are not stateless"
 ],
 "C123": [
  "arbitrary transformers as state machines, the union with named steps and weights, scikit-learn's FeatureUnion and FunctionTransformer transcribed, parallel tasks in any order; the extended class with the method resolution order; CollectionTransformer as an object with a flag",
  "inductive relations for fitting and transforming step by step, equivalence with the program by induction over the steps; induction over histories; witness for a wrapped class with its own fit_transform and for a union of dropped steps"
 ],
 "C124": [
  "objects with parameters and homology_dimensions_; ComplexPolynomial with its three attributes, replaced one after the other by fit, and the list shared with the caller; the computations are those of C22, C37, C38, C39 and C81",
  "induction over histories against a specification that remembers present parameters and the last acceptable fit; the values from the theorems about the computations; witnesses for a fit that fails half way and for a list changed by its owner"
 ],
 "C125": [
  "objects with parameters, neighborhood_params, the two searches and the transformer of persistent homology, replaced step by step by fit; searches, pdist and the order of sets as functions with the contract of their documentation; the transformer of persistent homology is that of C116",
  "the matrix is the distance matrix of an explicitly described space of inner points, outer points and apex; invariants over histories; the composition with C116; witnesses for ties, a changed metric and a failed fit"
 ],
 "C126": [
  "objects with parameters and the attributes stored by fit, one after the other; transform and resample as written, reading stored attributes and present parameters; the windows, percentiles and embeddings are those of C01-C09",
  "accepted fits determine the object; explicit index formulas for both methods; induction over histories; witnesses for a changed size, a changed function and a refused fit"
 ],
 "C127": [
  "the remaining properties and methods of Interval; infinities explicit, NaN as a value; objects with addresses for comparison, text as lists of characters",
  "order arguments in an ordered field; cancellation of text; the class defines no comparison, so that lookups by value fail"
 ],
 "C128": [
  "the model of the Mapper pipeline (covers, pullback clustering, nerve) on two related inputs or with two values of a parameter",
  "limits depend on the multiset of values, masks are reordered columns, cleaning keeps the order of first occurrence; a relation between the portions clustered in both runs; counting shared samples through the reordering; simulation of the edge loop for min_intersection"
 ],
 "C129": [
  "objects with parameters, n_dimensions_ and further attributes, over histories of set_params, fit (which may fail half way) and transform; the computations are those of the image claims",
  "invariant along histories for classes whose one attribute is replaced last; for height, radial and density filtrations the state after an accepted fit and harmless operations; composition with C55-C64; witnesses for objects spoilt by a refused fit"
 ],
 "C130": [
  "no new model: the objects of C113-C115 and C124, and in the specification what a diagram, a parameter and a result are in other units",
  "simulation of one history by the other; each computation commutes with the affine map (naturality of slices, reshapes and concatenations; order statistics, samplings, rasters, norms); the hypothesis on the engine is proved for real powers, p-norms and exact matching distances; witnesses for the places where units matter"
 ],
 "C131": [
  "plotly figures as lists of property paths with values, updates, plot_heatmap, all plot methods built on it, plots of clouds and of filtered diagrams, fit_transform_plot on objects (Model/ImagePlots); what a viewer sees in Spec/ImagePlots",
  "evaluation of lookups in appended lists; case analysis on keys of plotly_params; fit_transform_plot from the theorem on transform_plot (C102); unchecked origin and keys as refutations"
 ],
 "C132": [
  "no new model: the functions of C59-C64; symmetries of grids in Spec/ImageSymmetry",
  "from the characterisation of values by grid distances (C61-C63), by extremal pixels (C59, C60, now with the exact max_value_) and by counting pixels (C64): transport along a bijection, minimality of distances, existence of intermediate pixels, uniqueness of the normalised direction, cardinalities of finite sets"
 ],
 "C133": [
  "Model/MapperSession: pipelines of the caller, plotters with their attributes, calls of plot with widgets, clone, figure and handler; events of a session; callbacks read and write through the objects they share, and what one callback computes is the model of C108; whether clear_output takes effect before the next record is part of the history",
  "invariants over all histories (attributes exist once plot succeeded, ownership of figures and pipelines); simulation of an isolated plot by the model of C108; logs as a fold over what events report; witnesses for the false parts"
 ],
 "C134": [
  "Model/Docs: texts as lists of characters, the greedy regular expressions by occurrences of their literal parts, str.replace and word substitution as scanners, classes as dictionaries of methods",
  "characterisation of all three extracted sections for every text; word substitution against cutting a text into words; replacement of a text occurring once; witness for sections of several paragraphs"
 ],
 "C135": [
  "the models of C01-C05, C10 and C11 (Model/TimeSeries), composed",
  "closed forms of windows and embeddings by index arithmetic, then equality of lists entry by entry; witnesses where the alignments differ"
 ],
 "C136": [
  "the models of C55-C58 (Model/Images), composed",
  "the index map of np.pad composed with itself and with flips, by induction over axes; lists of active pixels split at the borders; witnesses where the learnt maximum changes"
 ],
 "C137": [
  "the models of C27-C31 and C36-C39, on joined diagrams",
  "landscapes by counting tent values above a threshold; sums over lists split at the join; the grouping rule of Shannon entropy; for filters, additivity is a hypothesis"
 ],
 "C138": [
  "wrapper objects with the attributes thisptr and pcohptr (None, set or deleted), printed messages, and the compiled classes as parameters",
  "invariants by induction on histories of calls; the full statement is false: arrays of no intervals have dimension 1, SparseRipsComplex raises for sparse=None, and a refused call of persistence after a successful one deletes the attribute for good"
 ],
 "C139": [
  "the model of C114 (fitted objects, grids, vectors, norms) with real numbers; curves, integrals and suprema of the glossary in Spec/Limits",
  "values on the grid are values of the curves; curves have bounded variation and are continuous from the right, so sums over the grid converge to integrals (with an error proportional to the step) and maxima to suprema"
 ],
 "C140": [
  "the models of C29, C33, C36, C37, C38 and C98 with real numbers",
  "Betti curves: an optimal matching of the diagrams bounds the number of grid points at which matched points differ; entropy and silhouette are continuous functions of sums of continuous functions of the points; witnesses for what jumps"
 ],
 "C141": [
  "the models of C22, C27, C28, C36 and C98 one after the other, with real numbers",
  "matching each long-lived point with itself and leaving the others alone bounds the distance; landscapes by counting tents above a level; witnesses by computation"
 ],
 "C142": [
  "The models of GraphGeodesicDistance, TransitionGraph and ConsistentRescaling of C66, C68 and C70.",
  "Walks are carried along the renumbering by induction; shortest walks exist because sums of finitely many non-negative weights are well-ordered; counts of transitions are compared under injective maps and reversal."
 ],
 "C143": [
  "`sfit`, `stransform`, `filterDiagrams`, `scalerTransform` and `forgetDimension` as modelled for C22-C25 and C115",
  "Naturality of filtering under positive scaling; the greatest bottleneck amplitude is half the greatest lifetime; blocks of filtered dimensions depend on the points of these dimensions only; witnesses on rational diagrams"
 ],
 "C144": [
  "`coverFit`, `coverTransform`, `coverFitTransform`, `firstSimpleGapFit` and `firstHistogramGapFit` as modelled for C40-C50; the tree builder and the cut are parameters",
  "The step between intervals decreases with the overlap while the intervals grow; the first gap moves right with the threshold; positions of distances relative to the edges of bins do not depend on units; witnesses on rational data"
 ],
 "C145": [
  "`fit`, `transformDistance` and `transformAmplitude` as modelled for C114, the curves of the specification used for C139",
  "Error of Riemann sums of functions dominated by a monotone function, sharpened by the variation of each kind of curve; nearest bins and slopes for suprema; a bar between two bins as witness"
 ],
 "C146": [
  "`cubicalFit`, `cubicalTransform`, `cubicalFitTransform` as modelled for C44",
  "The sets are the non-empty intersections of one mask per feature; permutations, sublists and inclusions of lists of masks carry over to the intersections; intervals grow with the overlap (C144); counting by products"
 ],
 "C147": [
  "The fitted objects of C113 (vector representations), C114 (`Amplitude`) and C124 (`NumberOfPoints`, `PersistenceEntropy`)",
  "Grids are determined by training data and number of bins; then the specifications of the single classes are compared: counts of intervals around a value, averages against maxima, norms of different orders, strict positivity of Shannon entropy"
 ],
 "C148": [
  "The pipeline model of C54 (cover, parallel clustering, nerve), scaler, filter function, preprocessing and clusterer being parameters",
  "A complete description of nodes as classes of equal labels in pullback sets and of edges as pairs with common elements; double counting of (sample, node) and (sample, pair of nodes); intervals two steps apart are disjoint for overlaps up to one half; boxes are choices of one interval per column; the map of labels induces the map of nodes"
 ],
 "C149": [
  "The model of C13: means, covariances and correlation coefficients over the reals, NaN for constant variables",
  "All entries in terms of correlation coefficients; coefficients of affine images; sums over permuted rows; coefficients as inner products of unit vectors, for which distances up to sign satisfy the triangle inequality"
 ],
 "C150": [
  "The models of C52 (filters), C44 (covers), C45 (clustering) and C54 (pipeline); arrangements of samples with proportional or nearly equal distances as a separate specification",
  "Eccentricities as norms of rows of the distance matrix; homogeneity, Minkowski and monotonicity of norms; invariance of covers under affine maps of the filter values (C128); portions of similar samples are similar"
 ],
 "C151": [
  "The models of C109 (graphs of neighbours) and C142 (geodesic distances), composed; ranks of neighbours as a separate specification",
  "The stored entries of the graph are edges to nearest neighbours with the weights of the mode (C109); walks are at least as long as the distance by the triangle inequality; the laws of C142 for scaled weights and additional edges"
 ],
 "C152": [
  "The models of C04 (embeddings) and C12 (permutation entropy); periods, recurrences and sine waves are stated about the series directly",
  "Closed form of the points of an embedding; each time occurs as a coordinate if there are at least d tau values; order patterns of reversed and negated rows; entropy does not depend on names of patterns"
 ],
 "C153": [
  "The models of C66 (transition graphs) and C142 (geodesic distances), joined by the list of stored entries of a sparse matrix",
  "Entries as counts of changes; double counting for rows and columns; induction on time for departures against arrivals and for walks along the series"
 ],
 "C154": [
  "The model of the image filtrations and of Padder (C57-C64)",
  "Values as truncated grid distances to sets; distances to unions, to sets of Hausdorff distance at most epsilon and to shifted sets; inclusion-exclusion for densities"
 ],
 "C155": [
  "`score` with weights over the model of pipelines (C13, C14) and of time-series steps (C82)",
  "The times of C82; as many increasing numbers below n as there are, are all of them; induction over the steps"
 ],
 "C156": [
  "The model of Derivative (C78)",
  "Induction over the order; Pascal's rule for Newton polynomials; an alternating curve for the sharp bound"
 ],
 "C157": [
  "The models of Derivative (C78), BettiCurve and PersistenceLandscape (C27, C28)",
  "Case analysis for one point; intervals between sampled values are disjoint; layers are 1-Lipschitz"
 ],
 "C158": [
  "The model of silhouettes (C29), with real powers",
  "Weighted averages of 1-Lipschitz functions; weights divided by that of the longest lifetime tend to one or zero"
 ],
 "C159": [
  "The models of PersistenceEntropy (C37), PermutationEntropy (C12) and the filter Entropy (C52)",
  "Equality case of log x ≤ x - 1; strict concavity for the splitting of a lifetime"
 ],
 "C160": [
  "The model of ComplexPolynomial (C39)",
  "Padded coefficients are those of the polynomial times a power of X; roots of both sides as multisets without zero; the roots of types R and S are injective in the point, moduli of types S and T give the lifetime"
 ],
 "C161": [
  "The model of StandardFeatures (C79) with the recipes modelled too (Model/CurveFunctions)",
  "Order statistics by counting; Cauchy-Schwarz for standard deviations; (M - a)(a - m) ≥ 0 for their bound"
 ],
 "C162": [
  "The models of PersistenceLandscape and BettiCurve (C27, C28) followed by that of StandardFeatures with its recipes (C161)",
  "Nearness of order statistics under a matching (C100) with C161_stable; monotonicity of the features; exchange of two sums"
 ]
}