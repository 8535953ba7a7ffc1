# Formal model of giotto-tda in Lean 4: design

## Layout

* `lean/Verif/Py/*.lean`      – the Python / numpy / sklearn primitives the code relies on
  (slices with negative steps, `divmod`, `linspace`, `gen_even_slices`, boolean masks, `nan_to_num` ...).
* `lean/Verif/Model/*.lean`   – the model: one definition per modelled function, each citing file and lines in `/repo`.
* `lean/Verif/Spec/*.lean`    – small independent specifications (plain mathematics, no reference to the model).
* `lean/Verif/Lemmas/*.lean`  – helper lemmas.
* `COVERAGE.md`               – generated by `tools/coverage.py`: which lines of which file of `/repo` each model definition cites.
* `AXIOMS.md`                 – generated by `tools/axioms.py`: the axioms each property theorem depends on.
* `seeded/LOG.jsonl`          – wrong programs tried against the theorems (`tools/mutate.py` applies an edit to a concatenated copy outside
  `/verif` and records which property theorems fail).  A theorem is recorded as failed if its proof, or that of
  a lemma it uses, is no longer accepted.  This is evidence that the theorem notices the edit, not a proof that its
  statement is false of the edited program: an edit that breaks a proof script but changes no result is recorded in the same way,
  and has a `note` where this was noticed.  Concatenating modules can itself break a proof (names become ambiguous); wherever
  a theorem had failed in all edits of a combination of modules, that combination was run without an edit, what fails there
  was removed from the log, and entries with nothing left were repeated by building the edited project.
  Most entries have the exact edit, `old` replaced by `new` in `module`; the first ones only describe it.
* `lean/Verif/Props/*.lean`   – the property theorems, each with an `example` showing that its hypotheses are met by a
  concrete non-trivial case.  Theorem names start with the property id (`C01_...`).

## Conventions

* Arrays are lists (possibly nested).  Exceptions are values: `Except PyErr a`.
* Real arithmetic is exact: a linearly ordered field `K` (rationals in examples), `Real` where roots and logarithms occur.
  Floating point rounding is **not** modelled.  Infinities and NaN are modelled explicitly where the code branches on them.
* Third-party numerical engines (ripser, flagser, GUDHI, hera, scipy's gaussian filter and shortest paths, sklearn
  clusterers, joblib scheduling) are parameters of the model: theorems hold for every function put in their place, under
  the hypotheses written in the theorem.
* When a property is false of the code, the file contains a refutation (`..._refuted`: a concrete witness evaluated on the
  model), and the strongest true variant, suffixed `_partial`.

## Trusted base

* Lean 4.33.0's kernel. No `native_decide`, no `bv_decide`, no `sorry`, no axioms of our own.
* Axioms: every property theorem depends on a subset of `propext`, `Classical.choice`, `Quot.sound`; the list per theorem is in `AXIOMS.md`.
* Mathlib's definitions used in statements (ordered fields, `Real`, `ENNReal`, `WithTop`, lists, `Real.log`, `Real.rpow`, `Finset` sums).
* The transcription of Python into Lean is by hand; each definition cites file and lines. numpy, scipy, scikit-learn, joblib and igraph
  primitives are transcribed from their documented semantics (`Py/Basic.lean`, and the definitions marked "Used in ..." in the model).
* Simplifications, stated again at each definition: floats are exact numbers (an ordered field, or `Real`), with infinities and NaN as
  explicit values where the code branches on them; dtypes only where they matter (image padding, `Inverter`, rescaling factors); exception
  messages and warnings' texts are dropped, exception classes are kept; estimators with state are state machines or functions on a heap only
  where a property is about histories or aliasing (C18, C24, C42, C73, C74, C87, C95, C14-C16).

## What is modelled and what is not

| package | modelled | not modelled |
|---------|----------|--------------|
| `gtda/time_series` | all transformers and helpers, and the scores of the search for embedding parameters (C110) | tensor-valued series beyond 3D; nearest neighbour search and logarithms are parameters |
| `gtda/pipeline.py`, `gtda/base.py` | `Pipeline` methods, routing, mixins, `transform_plot`, caching with `memory` (C117), sample weights of `score` (C155) | files of the cache, verbose timing |
| `gtda/homology` | validation, postprocessing, effective parameters, preparation of input, reduced homology, weak alpha edges, cubical layout | ripser, GUDHI, flagser and pyflagser (parameters), Delaunay triangulation (parameter) |
| `gtda/diagrams` | everything | hera and the gaussian filter are parameters (C98 states the contract for hera) |
| `gtda/images` | everything, including plots (C131) | |
| `gtda/curves` | everything | `np.average` with weights (a parameter in C79, left out in C161) |
| `gtda/graphs` | `TransitionGraph`, `GraphGeodesicDistance`, `KNeighborsGraph` | scipy's shortest paths and scikit-learn's neighbour search are parameters with contracts |
| `gtda/point_clouds` | rescalings | |
| `gtda/local_homology` | neighbourhoods, cone matrices, parameters over histories | the homology transformer used inside |
| `gtda/metaestimators` | `CollectionTransformer` | |
| `gtda/mapper` | covers, clustering, gap heuristics, nerve, contraction, filters, pipeline parameters, colours, hover texts, sizes, menus | igraph layouts, scikit-learn tree builders (parameters); widgets are modelled by their state and callbacks (C108, C133), not by their appearance |
| `gtda/plotting`, `plot` methods | the data handed to plotly | styles; `plotly_params` except for heatmaps (C131) and Mapper graphs |
| `gtda/utils` | validation, intervals, docstring helpers (C134) | |
| `gtda/externals/python` | the wrapper classes as objects over histories of calls | the compiled code they call (GUDHI), which is a parameter |
| `gtda/externals` (rest) | – | bindings and vendored C++ |

## Plan per property

| id | property | status | modules | model | proof |
|----|----|----|----|----|----|
| C01 | SlidingWindow.transform produces the documented windows | proved | TimeSeriesWindows | `_window_indices`, `transform`, `resample`, `slice_windows` on lists, with CPython slice semantics | arithmetic of divmod, list extensionality; C02 refuted at size 1, partial for size >= 2 |
| C02 | SlidingWindow.resample is aligned with transform | partial | TimeSeriesWindows | `_window_indices`, `transform`, `resample`, `slice_windows` on lists, with CPython slice semantics | arithmetic of divmod, list extensionality; C02 refuted at size 1, partial for size >= 2 |
| C03 | SlidingWindow.slice_windows delimits the windows of transform | proved | TimeSeriesWindows | `_window_indices`, `transform`, `resample`, `slice_windows` on lists, with CPython slice semantics | arithmetic of divmod, list extensionality; C02 refuted at size 1, partial for size >= 2 |
| C04 | Takens embedding of a univariate series has the documented points | proved | TimeSeriesWindows | `_time_delay_embedding`, `SingleTakensEmbedding` methods | same; C05 refuted at dimension 1 |
| C05 | SingleTakensEmbedding.resample is aligned with transform | partial | TimeSeriesWindows | `_time_delay_embedding`, `SingleTakensEmbedding` methods | same; C05 refuted at dimension 1 |
| C06 | TakensEmbedding with flatten lays out variables then delays | proved | TimeSeriesWindows | `_time_delay_embedding`, `SingleTakensEmbedding` methods | same; C05 refuted at dimension 1 |
| C07 | Optimal Takens parameters are within bounds and minimise their criteria | proved | TimeSeriesMore | the argmin loops with scores as parameters | induction on argmin |
| C08 | Labeller keeps X and labels aligned and n_steps_future apart | proved | TimeSeriesMore | `Labeller.transform/resample`, thresholds and one-hot encoding | list indexing, counting |
| C09 | Labeller class labels count the thresholds reached | proved | TimeSeriesMore | `Labeller.transform/resample`, thresholds and one-hot encoding | list indexing, counting |
| C10 | Resampler keeps every period-th sample of X and y alike | proved | TimeSeriesMore | `Resampler`, `Stationarizer` | list indexing, telescoping sums |
| C11 | Stationarizer outputs determine the series and stay aligned with y | proved | TimeSeriesMore | `Resampler`, `Stationarizer` | list indexing, telescoping sums |
| C12 | PermutationEntropy depends only on order patterns and is bounded | proved | SeriesFeatures | argsort patterns, `np.unique` counts, entropy over Real | concavity of `-x log x`, permutation invariance |
| C13 | PearsonDissimilarity returns a dissimilarity matrix | proved | SeriesFeatures | `np.corrcoef` over Real | Cauchy-Schwarz |
| C14 | Pipeline: fit followed by transform_resample equals fit_transform_resample | proved | Pipeline | pipelines as lists of abstract steps with state | induction over the list of steps |
| C15 | Pipeline routes fit parameters to the named step | proved | Pipeline, PipelineNestingFitted | pipelines as lists of abstract steps with state | induction over the list of steps |
| C16 | Pipelines of resamplers keep X and y aligned | proved | PipelineSeries | pipelines as lists of abstract steps with state | induction over the list of steps |
| C17 | n_jobs never changes the output of chunked transformers | proved | Parallel | `sklearn.utils.gen_even_slices`, generic chunked map | induction over slices |
| C18 | check_diagrams accepts exactly valid collections | proved | Diagrams | `check_diagrams`, `_subdiagrams`, `_postprocess_diagrams`, `_filter`, `_multirange`, `ForgetDimension`, `Scaler` | list induction, extended values with inf and nan |
| C19 | Subdiagram extraction never mixes diagrams | partial | Diagrams | `check_diagrams`, `_subdiagrams`, `_postprocess_diagrams`, `_filter`, `_multirange`, `ForgetDimension`, `Scaler` | list induction, extended values with inf and nan |
| C20 | Homology transformers output exactly the finite-replaced off-diagonal bars | proved | Diagrams | `check_diagrams`, `_subdiagrams`, `_postprocess_diagrams`, `_filter`, `_multirange`, `ForgetDimension`, `Scaler` | list induction, extended values with inf and nan |
| C21 | Homology transformers output rectangular, valid collections | proved | Diagrams | `check_diagrams`, `_subdiagrams`, `_postprocess_diagrams`, `_filter`, `_multirange`, `ForgetDimension`, `Scaler` | list induction, extended values with inf and nan |
| C22 | Filtering keeps exactly the points with lifetime above epsilon | proved | Diagrams | `check_diagrams`, `_subdiagrams`, `_postprocess_diagrams`, `_filter`, `_multirange`, `ForgetDimension`, `Scaler` | list induction, extended values with inf and nan |
| C23 | Filtering is idempotent, monotone and keeps collections valid | proved | Diagrams | `check_diagrams`, `_subdiagrams`, `_postprocess_diagrams`, `_filter`, `_multirange`, `ForgetDimension`, `Scaler` | list induction, extended values with inf and nan |
| C24 | ForgetDimension forgets only the dimension | proved | Diagrams | `check_diagrams`, `_subdiagrams`, `_postprocess_diagrams`, `_filter`, `_multirange`, `ForgetDimension`, `Scaler` | list induction, extended values with inf and nan |
| C25 | Scaler.inverse_transform undoes transform | proved | Diagrams | `check_diagrams`, `_subdiagrams`, `_postprocess_diagrams`, `_filter`, `_multirange`, `ForgetDimension`, `Scaler` | list induction, extended values with inf and nan |
| C26 | Scaler with bottleneck and max makes the longest lifetime 2 | proved | Amplitudes | `check_diagrams`, `_subdiagrams`, `_postprocess_diagrams`, `_filter`, `_multirange`, `ForgetDimension`, `Scaler` | list induction, extended values with inf and nan |
| C27 | Betti curves count the living features | proved | Curves | `betti_curves`, `landscapes`, `silhouettes`, `heats`, `persistence_images`, `_bin`, distances, amplitudes and their parallel assembly | counting, sorting, Minkowski inequality from Mathlib |
| C28 | Persistence landscapes are sorted tent functions | proved | Curves | `betti_curves`, `landscapes`, `silhouettes`, `heats`, `persistence_images`, `_bin`, distances, amplitudes and their parallel assembly | counting, sorting, Minkowski inequality from Mathlib |
| C29 | Silhouettes are weighted averages of tents | partial | Silhouette | `betti_curves`, `landscapes`, `silhouettes`, `heats`, `persistence_images`, `_bin`, distances, amplitudes and their parallel assembly | counting, sorting, Minkowski inequality from Mathlib |
| C30 | Heat kernel rasters are in bounds and antisymmetric | proved | Raster | `betti_curves`, `landscapes`, `silhouettes`, `heats`, `persistence_images`, `_bin`, distances, amplitudes and their parallel assembly | counting, sorting, Minkowski inequality from Mathlib |
| C31 | Persistence images ignore diagonal points | partial | Raster | `betti_curves`, `landscapes`, `silhouettes`, `heats`, `persistence_images`, `_bin`, distances, amplitudes and their parallel assembly | counting, sorting, Minkowski inequality from Mathlib |
| C32 | Filtration samplings span the training data | proved | Samplings | `betti_curves`, `landscapes`, `silhouettes`, `heats`, `persistence_images`, `_bin`, distances, amplitudes and their parallel assembly | counting, sorting, Minkowski inequality from Mathlib |
| C33 | PairwiseDistance entries are the distances between the right diagrams | proved | Distances | `betti_curves`, `landscapes`, `silhouettes`, `heats`, `persistence_images`, `_bin`, distances, amplitudes and their parallel assembly | counting, sorting, Minkowski inequality from Mathlib |
| C34 | Vectorised distances are pseudometrics | partial | Distances | `betti_curves`, `landscapes`, `silhouettes`, `heats`, `persistence_images`, `_bin`, distances, amplitudes and their parallel assembly | counting, sorting, Minkowski inequality from Mathlib |
| C35 | Landscape distances do not depend on how many empty layers are stored | proved | Amplitudes, Distances | `betti_curves`, `landscapes`, `silhouettes`, `heats`, `persistence_images`, `_bin`, distances, amplitudes and their parallel assembly | counting, sorting, Minkowski inequality from Mathlib |
| C36 | Amplitudes measure the distance to the diagonal | partial | Amplitudes | `betti_curves`, `landscapes`, `silhouettes`, `heats`, `persistence_images`, `_bin`, distances, amplitudes and their parallel assembly | counting, sorting, Minkowski inequality from Mathlib |
| C37 | Persistence entropy is a bounded, scale-invariant entropy of lifetimes | proved | Features | entropy, counts, complex polynomial | entropy bounds; product of linear factors |
| C38 | NumberOfPoints counts off-diagonal points | proved | Features | entropy, counts, complex polynomial | entropy bounds; product of linear factors |
| C39 | ComplexPolynomial returns the coefficients of the polynomial with the diagram's roots | partial | Polynomials | entropy, counts, complex polynomial | entropy bounds; product of linear factors |
| C40 | Uniform one-dimensional covers cover and overlap as documented | proved | Cover | covers | ordered field arithmetic; refinement between two implementations; call histories as a state machine |
| C41 | Balanced covers: fit then transform equals fit_transform on the training data | proved | Cover | covers | ordered field arithmetic; refinement between two implementations; call histories as a state machine |
| C42 | A cover transforms with the limits of its latest fit | partial | Cover | covers | ordered field arithmetic; refinement between two implementations; call histories as a state machine |
| C43 | Covers return no empty and no duplicate sets and lose no sample | proved | Cover | covers | ordered field arithmetic; refinement between two implementations; call histories as a state machine |
| C44 | CubicalCover sets are products of one-dimensional intervals | proved | Cover | covers | ordered field arithmetic; refinement between two implementations; call histories as a state machine |
| C45 | ParallelClustering labels exactly the pullback sets | proved | MapperCluster | clustering labels, nerve, contraction | list invariants; well-founded order for `_limit_mapping`; igraph contraction modelled from its documentation |
| C46 | The Mapper graph is the 1-skeleton of the nerve | proved | Nerve | clustering labels, nerve, contraction | list invariants; well-founded order for `_limit_mapping`; igraph contraction modelled from its documentation |
| C47 | Node contraction maps every cluster to a maximal superset cluster | proved | Nerve | clustering labels, nerve, contraction | list invariants; well-founded order for `_limit_mapping`; igraph contraction modelled from its documentation |
| C48 | The contracted Mapper graph is still a simple graph with faithful attributes | partial | Nerve | clustering labels, nerve, contraction | list invariants; well-founded order for `_limit_mapping`; igraph contraction modelled from its documentation |
| C49 | FirstSimpleGap cuts the dendrogram at the first large gap | partial | MapperGaps | gap heuristics | pigeonhole for termination |
| C50 | FirstHistogramGap terminates with a valid number of clusters | proved | MapperGaps | gap heuristics | pigeonhole for termination |
| C51 | MapperPipeline parameters: setting and reading | proved | MapperParams | parameter routing as association lists over strings | list/string lemmas |
| C52 | Mapper filters: eccentricity and entropy | proved | MapperFilters | filters, colours, end-to-end composition | Real inequalities, composition of earlier theorems |
| C53 | Node colours are well formed | proved | Visualization | filters, colours, end-to-end composition | Real inequalities, composition of earlier theorems |
| C54 | Mapper end to end: every sample is in the graph | partial | MapperEndToEnd | filters, colours, end-to-end composition | Real inequalities, composition of earlier theorems |
| C55 | Binarizer thresholds relative to the training maximum | proved | ImagesPre | image preprocessing and filtrations | pixelwise; breadth-first-search invariant for dilation; roll arithmetic for density |
| C56 | Inverter is an order-reversing involution | partial | ImagesPre | image preprocessing and filtrations | pixelwise; breadth-first-search invariant for dilation; roll arithmetic for density |
| C57 | Padder adds a border and keeps the interior | partial | ImagesPre | image preprocessing and filtrations | pixelwise; breadth-first-search invariant for dilation; roll arithmetic for density |
| C58 | ImageToPointCloud lists exactly the active pixels | proved | ImagesPre | image preprocessing and filtrations | pixelwise; breadth-first-search invariant for dilation; roll arithmetic for density |
| C59 | HeightFiltration is the distance to a hyperplane on active pixels | proved | ImagesMesh | image preprocessing and filtrations | pixelwise; breadth-first-search invariant for dilation; roll arithmetic for density |
| C60 | RadialFiltration is the distance to the centre within the radius | proved | ImagesMesh | image preprocessing and filtrations | pixelwise; breadth-first-search invariant for dilation; roll arithmetic for density |
| C61 | DilationFiltration is the grid distance to the active region | proved | ImagesDilation | image preprocessing and filtrations | pixelwise; breadth-first-search invariant for dilation; roll arithmetic for density |
| C62 | ErosionFiltration is the grid distance to the inactive region | proved | ImagesDilation | image preprocessing and filtrations | pixelwise; breadth-first-search invariant for dilation; roll arithmetic for density |
| C63 | SignedDistanceFiltration combines both distances | proved | ImagesDilation | image preprocessing and filtrations | pixelwise; breadth-first-search invariant for dilation; roll arithmetic for density |
| C64 | DensityFiltration counts active neighbours within the radius | proved | ImagesDensity | image preprocessing and filtrations | pixelwise; breadth-first-search invariant for dilation; roll arithmetic for density |
| C65 | Image filtrations treat the images of a batch independently | proved | ImagesDensity, ImagesDilation, ImagesMesh | image preprocessing and filtrations | pixelwise; breadth-first-search invariant for dilation; roll arithmetic for density |
| C66 | TransitionGraph records exactly the observed transitions | proved | Graphs | transition graphs, rescalings, geodesic method selection | counting, Real identities, decision logic |
| C67 | TransitionGraph passes func_params to func | partial | Graphs | transition graphs, rescalings, geodesic method selection | counting, Real identities, decision logic |
| C68 | ConsistentRescaling is symmetric and scale invariant | proved | PointClouds | transition graphs, rescalings, geodesic method selection | counting, Real identities, decision logic |
| C69 | ConsecutiveRescaling rescales exactly consecutive pairs | partial | PointClouds | transition graphs, rescalings, geodesic method selection | counting, Real identities, decision logic |
| C70 | GraphGeodesicDistance returns shortest walk lengths of the documented graph | proved | Graphs | transition graphs, rescalings, geodesic method selection | counting, Real identities, decision logic |
| C71 | WeakAlphaPersistence weights Delaunay edges with their own length | partial | PointClouds | CSR row reconstruction | prefix sums |
| C72 | Local homology cones off exactly the outer neighbours | proved | LocalHomology | local homology cone matrix; refit histories | indexing, state machine |
| C73 | Refitting a local homology transformer forgets earlier data | partial | LocalHomology | local homology cone matrix; refit histories | indexing, state machine |
| C74 | CollectionTransformer applies the transformer to each entry independently | partial | LocalHomology | collection transformer | map law |
| C75 | validate_params rejects exactly the declared violations | partial | Validation | parameter validation, intervals | decision logic outright |
| C76 | Interval arithmetic and membership agree | partial | Intervals | parameter validation, intervals | decision logic outright |
| C77 | Interval objects survive pickling | partial | Intervals | parameter validation, intervals | decision logic outright |
| C78 | Derivative computes iterated forward differences | proved | CurveFeatures | curves, flagser padding | finite differences, list indexing |
| C79 | StandardFeatures orders features by channel | partial | CurveFeatures | curves, flagser padding | finite differences, list indexing |
| C80 | FlagserPersistence aligns diagrams with homology dimensions | proved | Persistence | curves, flagser padding | finite differences, list indexing |
| C81 | Normalised persistence entropy | proved | Features | normalised entropy over Real with the NaN and zero-division cases | entropy bounds, Real identities |
| C82 | Pipelines of time-series steps do not look ahead | proved | PipelineSeries | time-series steps as pipeline steps on rows | induction over the list of steps: output prefix depends on input prefix |
| C83 | Pipeline.resample returns the targets of transform_resample | partial | Pipeline | `Pipeline.resample` | unfolding of the loop; refutation by witness |
| C84 | Pipeline.inverse_transform undoes transform | partial | Pipeline | `Pipeline.inverse_transform` | induction over reversed steps; refutation for one-argument inverses |
| C85 | Projection and callables act row by row | partial | MapperFilters | `Projection`, `transformer_from_callable_on_rows` | row-wise map laws, decision logic on signatures |
| C86 | Geodesic distances form an extended pseudometric | proved | Graphs | shortest walks as infimum over walks | concatenation of walks |
| C87 | Changing the neighbourhood parameters of a local homology transformer affects later fits | partial | LocalHomology | parameters against attributes of local homology transformers | state machine |
| C88 | Persistence diagrams do not depend on the batch or on orderings | partial | Persistence | batches, orders of dimensions, schedules of persistence transformers | permutation and map laws |
| C89 | Effective parameters of weighted Rips filtrations | proved | Persistence | merging of default and given weight parameters | dictionaries as association lists |
| C90 | CubicalPersistence passes every pixel to the engine and reports its bars | partial | Persistence | column-major layout of pixels | bijection of index lists |
| C91 | Reduced homology discards one earliest born essential class | partial | Persistence | removal of an essential class | list surgery against a multiset specification |
| C92 | Hover label colours of 3D plots | partial | Visualization | hover label colours | interpolation in ordered fields |
| C93 | Node statistics, sizes and colour menu | proved | Visualization | node sizes, statistics, menus | list alignment |
| C94 | Rounding of node statistics to significant figures | proved | Visualization | rounding to significant figures | floor and logarithm bounds |
| C95 | make_mapper_pipeline against set_params | partial | MapperParams | tree of estimators with parameters | mutual induction over trees |
| C96 | Which collections of point clouds are accepted | partial | InputChecks | `check_point_clouds` | decision logic, loop invariant with failure flag |
| C97 | Which collections of arrays are accepted | proved | InputChecks | `check_collection` | decision logic |
| C98 | Bottleneck and Wasserstein distances are metrics and stable | proved | Matching | matchings between diagrams as specification; engines as parameters | finite minimum over matchings, composition of matchings, Minkowski |
| C99 | Amplitudes are distances to the empty diagram | proved | Matching | amplitudes against matchings to the empty diagram | evaluation of the only matching |
| C100 | Landscapes are stable | proved | Matching | landscapes against matchings | rank functions of tents under matchings |
| C101 | Plots of persistence diagrams show the diagram | partial | Plotting | `plot_diagram` | list filtering, ordered field inequalities |
| C102 | transform_plot shows what plot shows | partial | Plotting | `transform_plot` | slices; padding removed by plotting |
| C103 | Plots of curves and landscapes match names and data | proved | Plotting | `plot` of curves and landscapes | mapM laws, composition with C27 |
| C104 | plot_betti_curves and plot_betti_surfaces match names and data | partial | Plotting | `plot_betti_curves`, `plot_betti_surfaces` | mapM laws; refutations |
| C105 | Derivative.plot draws the requested channels | partial | Plotting | `Derivative.plot` | mapM laws; refutations |
| C106 | Heat maps are drawn at their coordinates | proved | Plotting | `plot` of rasters | composition with the raster model |
| C107 | Plots of point clouds show every point | partial | Plotting | `plot_point_cloud` | decision logic |
| C108 | Interactive Mapper plots follow the widgets | partial | MapperInteractive | Widgets, pushes of all displayed values through `set_params`, refit, redraw with the exceptions that interrupt it, and the validity flag (Model/MapperInteractive, on top of Model/MapperParams). Fitting, layout, colours and buttons are parameters. | Setting one plain parameter by its nested name changes that parameter only (induction on the nesting); an invariant over histories of entered values; a second invariant for the figure. |
| C109 | kNN graphs: exactly n_neighbors nearest other points | partial | Neighbors | `KNeighborsGraph` over the model of `check_point_clouds`; scikit-learn's removal of the point itself is modelled, its neighbour search is a parameter with a contract, sparse input is an opaque engine | the k+1 nearest minus the point itself (or the first one) are k nearest others, by cases on whether it is among them; iteration over the stacked array gives back the list; order independence by `scheduled_ok` |
| C110 | Search of Takens parameters: scores, invariance, failure | partial | MutualInformation, TakensSearch | both scores (bins and mutual information over the reals, squares of distances instead of roots, a search of neighbours as parameter, numpy's rotations and slices) and the search that uses them | rotations and slices reduced to an index formula; embeddings of a mapped series are mapped embeddings; squares of distances and the variance scale by the square of the factor; the last clause (what a false neighbour is) is refuted by the series 0, 1, 2, …: neighbours of other points are compared |
| C111 | Colour arguments of static Mapper plots | partial | NodeColors | `_infer_color_features_kind`, `_validate_color_kwargs`, `_calculate_graph_data` and the menu; containers as arrays with one or two axes, labelled rows or values; objects by the attributes the code looks at | a separate specification of the features chosen (labelled columns); each branch produces a table of these columns; composed with the theorems of C93 on statistics, texts and menus. Two clauses are refuted: color_features is not ignored with an array as statistic, and transformers with dataframes as output fail |
| C112 | Nodes and lines of Mapper plots | proved | NodeColors | the coordinate lists of `_calculate_graph_data`, a layout engine as parameter | reading the lists back as polylines interrupted at None gives the edges, by induction over them |
| C113 | Vectorizers as fitted objects | partial | Vectorizers | the five classes as objects with parameters, homology dimensions, samplings and weights; fit as a state change that may fail half-way; transform with the number of jobs; Gaussian filter and powers as an engine | fit is composed with the theorems on samplings and on the five functions of one dimension; the object after any history equals a new object fitted once (induction over the operations). Refuted with witnesses: a failed fit can change the dimensions of the output; NotFittedError after a failed first fit; n_bins=1 gives NaN images; whether unequal counts raise depends on n_jobs |
| C114 | PairwiseDistance and Amplitude as fitted objects | partial | DiagramMetrics | the two classes as objects with parameters, effective metric parameters, homology dimensions and stored diagrams; validation of all parameters; fit as a state change that may fail half-way; transform with all seven metrics; norms, powers, filters and matchings as an engine | the axes stored by fit are those of the corresponding vectorizer, so that the entries are compared with the output of the vectorizer model (C113); validation is decided key by key; histories by induction over the operations. Refuted with witnesses: rejected metric parameters are used by transform after the failed fit; the object may be unusable or return other dimensions after it; NotFittedError after a failed first fit; n_bins=1 gives NaN amplitudes |
| C115 | Scaler as a fitted object | partial | ScalerObject | the class as an object with parameters, effective metric parameters, homology dimensions and scale; fit as a state change that may fail at seven places; transform and inverse_transform with check_diagrams; the function is arbitrary | fit is compared step by step with the model of Amplitude (C114); amplitudes of matchings are homogeneous; failures and histories by induction over the operations. Refuted with witnesses: function=None is accepted and then raises TypeError; a negative scale makes inverse_transform raise; scale 0 gives non-finite entries; AttributeError instead of NotFittedError |
| C116 | Persistent homology transformers as fitted objects | partial | HomologyObject | the seven classes as one kind of object with parameters and the attributes that fit stores step by step; transform reads both; the exact arguments of every engine call; validation, checks and engines are arbitrary functions that may raise | success of fit is characterised field by field; transform depends only on the attributes of its class and the parameters it reads; results from C20, flagser's alignment as in C80. Refuted with witnesses: a larger max_edge_length set after fit loses classes; cubical diagrams depend on training images; homology_dimensions=[] raises IndexError and leaves an object that returns empty diagrams; rejected weight_params are used; a rejected precomputed fit makes the object reject point clouds; AttributeError instead of NotFittedError |
| C117 | Caching the transformers of a pipeline (memory) | proved | PipelineCache | estimators are objects in a heap, steps refer to them; clones and loaded results are new objects; the cache is a list of calls and results, every executed call is recorded; joblib is modelled as exact comparison of arguments without expiry | invariant over histories: every entry of the cache is the result of the call it stands for and stays; the loop with and without cache refines the loop of Verif.Model.Pipeline by induction over the steps; no_refit by a simulation of the two runs; a witness for shared objects |
| C118 | Pipelines as steps of pipelines | partial | PipelineNesting, PipelineNestingFitted | the methods of a pipeline, with their availability, as a record of methods like that of any estimator; its state is the list of the states of its steps | fitting by splitting the loop over the steps (induction) and routing prefixed parameters in two stages; the other methods by splitting the chain of calls; witnesses for resample and for inner pipelines that end with a step without fit_transform |
| C119 | Which methods a pipeline has; fit_predict; names given by make_pipeline | partial | PipelineNesting, PipelineNestingFitted | the properties that check the final step before returning a method; fit_predict; make_pipeline with scikit-learn's naming function | induction over the chain of calls with the validation of the steps; names by their first hyphen and by counting occurrences; a witness for resample |
| C120 | Clusterers as fitted objects | partial | ClusterObject | objects with parameters and attributes that may be missing, fit as a function that returns the new object and the outcome; scikit-learn's tree builders and cut as parameters; clusterers given to ParallelClustering as classes with parameters and a state | case analysis of fit, induction over histories, totality of the numbers of clusters from C49 and C50; a witness for the tree attributes that stay from an earlier fit when the new data is a single sample |
| C121 | Covers as objects: validation, shapes, parameter changes and messages | partial | CoverObject | objects with parameters of any type and stored intervals around the algorithms of C40 to C44; arrays of one or two dimensions; exceptions that name a feature | case analysis of the checks, reduction to C40, C41 and C44 per column, induction over the columns (first bad column) and over histories; a witness for the AttributeError |
| C122 | Transformers whose fit does nothing | partial | Stateless | objects with parameters and a flag, for eleven classes the checks of fit and the bodies of the methods around the functions of earlier claims; KNeighborsGraph, TransitionGraph and ImageToPointCloud with the further attributes they store | induction over histories once for all classes, characterisation of check_array and check_collection, class by class the value of the body; witnesses for the three classes that are not stateless |
| C123 | Adapters: unions, extended classes and collections | partial | Adapters | arbitrary transformers as state machines, the union with named steps and weights, scikit-learn's FeatureUnion and FunctionTransformer transcribed, parallel tasks in any order; the extended class with the method resolution order; CollectionTransformer as an object with a flag | inductive relations for fitting and transforming step by step, equivalence with the program by induction over the steps; induction over histories; witness for a wrapped class with its own fit_transform and for a union of dropped steps |
| C124 | Features and filtering of diagrams as fitted objects | partial | FeatureObject | objects with parameters and homology_dimensions_; ComplexPolynomial with its three attributes, replaced one after the other by fit, and the list shared with the caller; the computations are those of C22, C37, C38, C39 and C81 | induction over histories against a specification that remembers present parameters and the last acceptable fit; the values from the theorems about the computations; witnesses for a fit that fails half way and for a list changed by its owner |
| C125 | Local homology at a point is that of its neighbourhoods in the training data | partial | LocalObject | objects with parameters, neighborhood_params, the two searches and the transformer of persistent homology, replaced step by step by fit; searches, pdist and the order of sets as functions with the contract of their documentation; the transformer of persistent homology is that of C116 | the matrix is the distance matrix of an explicitly described space of inner points, outer points and apex; invariants over histories; the composition with C116; witnesses for ties, a changed metric and a failed fit |
| C126 | A fitted Labeller or SingleTakensEmbedding keeps transform and resample aligned | partial | SeriesObject | objects with parameters and the attributes stored by fit, one after the other; transform and resample as written, reading stored attributes and present parameters; the windows, percentiles and embeddings are those of C01-C09 | accepted fits determine the object; explicit index formulas for both methods; induction over histories; witnesses for a changed size, a changed function and a refused fit |
| C127 | Midpoint, length, floor division, text and identity of intervals agree with the intervals as sets | partial | IntervalsMore | the remaining properties and methods of Interval; infinities explicit, NaN as a value; objects with addresses for comparison, text as lists of characters | order arguments in an ordered field; cancellation of text; the class defines no comparison, so that lookups by value fail |
| C128 | What a Mapper graph does not depend on | partial | MapperInvariance | the model of the Mapper pipeline (covers, pullback clustering, nerve) on two related inputs or with two values of a parameter | limits depend on the multiset of values, masks are reordered columns, cleaning keeps the order of first occurrence; a relation between the portions clustered in both runs; counting shared samples through the reordering; simulation of the edge loop for min_intersection |
| C129 | Image transformers as fitted objects | partial | ImageObject, ImageObjectMesh | objects with parameters, n_dimensions_ and further attributes, over histories of set_params, fit (which may fail half way) and transform; the computations are those of the image claims | invariant along histories for classes whose one attribute is replaced last; for height, radial and density filtrations the state after an accepted fit and harmless operations; composition with C55-C64; witnesses for objects spoilt by a refused fit |
| C130 | Diagram features in other units | proved | Units, UnitsFeatures, UnitsMetrics | no new model: the objects of C113-C115 and C124, and in the specification what a diagram, a parameter and a result are in other units | simulation of one history by the other; each computation commutes with the affine map (naturality of slices, reshapes and concatenations; order statistics, samplings, rasters, norms); the hypothesis on the engine is proved for real powers, p-norms and exact matching distances; witnesses for the places where units matter |
| C131 | Heat maps and other plots of single samples | partial | ImagePlots | plotly figures as lists of property paths with values, updates, plot_heatmap, all plot methods built on it, plots of clouds and of filtered diagrams, fit_transform_plot on objects (Model/ImagePlots); what a viewer sees in Spec/ImagePlots | evaluation of lookups in appended lists; case analysis on keys of plotly_params; fit_transform_plot from the theorem on transform_plot (C102); unchecked origin and keys as refutations |
| C132 | Symmetry, monotonicity and duality of image filtrations | proved | ImageSymmetry, ImageSymmetryMesh | no new model: the functions of C59-C64; symmetries of grids in Spec/ImageSymmetry | from the characterisation of values by grid distances (C61-C63), by extremal pixels (C59, C60, now with the exact max_value_) and by counting pixels (C64): transport along a bijection, minimality of distances, existence of intermediate pixels, uniqueness of the normalised direction, cardinalities of finite sets |
| C133 | Several interactive Mapper plots in one session, and their logs | partial | MapperSession, MapperSessionLogs | Model/MapperSession: pipelines of the caller, plotters with their attributes, calls of plot with widgets, clone, figure and handler; events of a session; callbacks read and write through the objects they share, and what one callback computes is the model of C108; whether clear_output takes effect before the next record is part of the history | invariants over all histories (attributes exist once plot succeeded, ownership of figures and pipelines); simulation of an isolated plot by the model of C108; logs as a fold over what events report; witnesses for the false parts |
| C134 | The documentation of fit_transform matches fit and transform, and decorating a class changes nothing else | partial | Docs | Model/Docs: texts as lists of characters, the greedy regular expressions by occurrences of their literal parts, str.replace and word substitution as scanners, classes as dictionaries of methods | characterisation of all three extracted sections for every text; word substitution against cutting a text into words; replacement of a text occurring once; witness for sections of several paragraphs |
| C135 | Time series transformers in sequence | partial | SeriesCompose | the models of C01-C05, C10 and C11 (Model/TimeSeries), composed | closed forms of windows and embeddings by index arithmetic, then equality of lists entry by entry; witnesses where the alignments differ |
| C136 | Image preprocessors in sequence | partial | ImagesCompose | the models of C55-C58 (Model/Images), composed | the index map of np.pad composed with itself and with flips, by induction over axes; lists of active pixels split at the borders; witnesses where the learnt maximum changes |
| C137 | Features of joined diagrams | proved | Joined | the models of C27-C31 and C36-C39, on joined diagrams | landscapes by counting tent values above a threshold; sums over lists split at the join; the grouping rule of Shannon entropy; for filters, additivity is a hypothesis |
| C138 | GUDHI wrapper objects | partial | Gudhi | wrapper objects with the attributes thisptr and pcohptr (None, set or deleted), printed messages, and the compiled classes as parameters | invariants by induction on histories of calls; the full statement is false: arrays of no intervals have dimension 1, SparseRipsComplex raises for sparse=None, and a refused call of persistence after a successful one deletes the attribute for good |
| C139 | Distances and amplitudes converge as n_bins grows | proved | Limits | the model of C114 (fitted objects, grids, vectors, norms) with real numbers; curves, integrals and suprema of the glossary in Spec/Limits | values on the grid are values of the curves; curves have bounded variation and are continuous from the right, so sums over the grid converge to integrals (with an error proportional to the step) and maxima to suprema |
| C140 | Which features change little when diagrams change little | proved | Stability | the models of C29, C33, C36, C37, C38 and C98 with real numbers | Betti curves: an optimal matching of the diagrams bounds the number of grid points at which matched points differ; entropy and silhouette are continuous functions of sums of continuous functions of the points; witnesses for what jumps |
| C141 | What filtering changes in features and distances | proved | FilteredFeatures | the models of C22, C27, C28, C36 and C98 one after the other, with real numbers | matching each long-lived point with itself and leaving the others alone bounds the distance; landscapes by counting tents above a level; witnesses by computation |
| C142 | Graph and rescaling transformers depend on the graph, not on how it is written down | proved | GraphSymmetry | The models of GraphGeodesicDistance, TransitionGraph and ConsistentRescaling of C66, C68 and C70. | Walks are carried along the renumbering by induction; shortest walks exist because sums of finitely many non-negative weights are well-ordered; counts of transitions are compared under injective maps and reversal. |
| C143 | Diagram preprocessors used one after the other | proved | DiagramSequence | `sfit`, `stransform`, `filterDiagrams`, `scalerTransform` and `forgetDimension` as modelled for C22-C25 and C115 | Naturality of filtering under positive scaling; the greatest bottleneck amplitude is half the greatest lifetime; blocks of filtered dimensions depend on the points of these dimensions only; witnesses on rational diagrams |
| C144 | How Mapper covers and gap clusterers respond to their parameters | proved | MapperResponse | `coverFit`, `coverTransform`, `coverFitTransform`, `firstSimpleGapFit` and `firstHistogramGapFit` as modelled for C40-C50; the tree builder and the cut are parameters | The step between intervals decreases with the overlap while the intervals grow; the first gap moves right with the threshold; positions of distances relative to the edges of bins do not depend on units; witnesses on rational data |
| C145 | How many bins are enough for distances and amplitudes | proved | Rates | `fit`, `transformDistance` and `transformAmplitude` as modelled for C114, the curves of the specification used for C139 | Error of Riemann sums of functions dominated by a monotone function, sharpened by the variation of each kind of curve; nearest bins and slopes for suprema; a bar between two bins as witness |
| C146 | Cubical covers: features, overlap and number of sets | proved | CubicalResponse | `cubicalFit`, `cubicalTransform`, `cubicalFitTransform` as modelled for C44 | The sets are the non-empty intersections of one mask per feature; permutations, sublists and inclusions of lists of masks carry over to the intersections; intervals grow with the overlap (C144); counting by products |
| C147 | Features of the same diagrams agree with each other | proved | Agreement | The fitted objects of C113 (vector representations), C114 (`Amplitude`) and C124 (`NumberOfPoints`, `PersistenceEntropy`) | Grids are determined by training data and number of bins; then the specifications of the single classes are compared: counts of intervals around a value, averages against maxima, norms of different orders, strict positivity of Shannon entropy |
| C148 | The shape of Mapper graphs, and how it depends on cover and clusterer | proved | MapperShape | The pipeline model of C54 (cover, parallel clustering, nerve), scaler, filter function, preprocessing and clusterer being parameters | A complete description of nodes as classes of equal labels in pullback sets and of edges as pairs with common elements; double counting of (sample, node) and (sample, pair of nodes); intervals two steps apart are disjoint for overlaps up to one half; boxes are choices of one interval per column; the map of labels induces the map of nodes |
| C149 | Pearson dissimilarities as distances between time series | proved | Correlation | The model of C13: means, covariances and correlation coefficients over the reals, NaN for constant variables | All entries in terms of correlation coefficients; coefficients of affine images; sums over permuted rows; coefficients as inner products of unit vectors, for which distances up to sign satisfy the triangle inequality |
| C150 | Eccentricities, and Mapper graphs made with them, depend on distances only | proved | Eccentricity | The models of C52 (filters), C44 (covers), C45 (clustering) and C54 (pipeline); arrangements of samples with proportional or nearly equal distances as a separate specification | Eccentricities as norms of rows of the distance matrix; homogeneity, Minkowski and monotonicity of norms; invariance of covers under affine maps of the filter values (C128); portions of similar samples are similar |
| C151 | Geodesic distances in graphs of nearest neighbours | proved | KnnGeodesic | The models of C109 (graphs of neighbours) and C142 (geodesic distances), composed; ranks of neighbours as a separate specification | The stored entries of the graph are edges to nearest neighbours with the weights of the mode (C109); walks are at least as long as the distance by the triangle inequality; the laws of C142 for scaled weights and additional edges |
| C152 | What a Takens embedding of a series keeps | proved | TakensLaws | The models of C04 (embeddings) and C12 (permutation entropy); periods, recurrences and sine waves are stated about the series directly | Closed form of the points of an embedding; each time occurs as a coordinate if there are at least d tau values; order patterns of reversed and negated rows; entropy does not depend on names of patterns |
| C153 | Transition graphs as trajectories, and their geodesic distances | proved | TransitionGeodesic | The models of C66 (transition graphs) and C142 (geodesic distances), joined by the list of stored entries of a sparse matrix | Entries as counts of changes; double counting for rows and columns; induction on time for departures against arrivals and for walks along the series |
| C154 | Image filtrations of unions, intersections, padded images and shapes near each other | proved | ImageSets | The model of the image filtrations and of Padder (C57-C64) | Values as truncated grid distances to sets; distances to unions, to sets of Hausdorff distance at most epsilon and to shifted sets; inclusion-exclusion for densities |
| C155 | Sample weights given to Pipeline.score belong to the samples that are scored | partial | PipelineScore | `score` with weights over the model of pipelines (C13, C14) and of time-series steps (C82) | The times of C82; as many increasing numbers below n as there are, are all of them; induction over the steps |
| C156 | What Derivative keeps of a curve, and how it responds to small changes | proved | CurveDerivatives | The model of Derivative (C78) | Induction over the order; Pascal's rule for Newton polynomials; an alternating curve for the sharp bound |
| C157 | Derivatives of Betti curves and landscapes | proved | BettiDerivatives | The models of Derivative (C78), BettiCurve and PersistenceLandscape (C27, C28) | Case analysis for one point; intervals between sampled values are disjoint; layers are 1-Lipschitz |
| C158 | How silhouettes depend on the sampled value and on the power | proved | SilhouettePowers | The model of silhouettes (C29), with real powers | Weighted averages of 1-Lipschitz functions; weights divided by that of the longest lifetime tend to one or zero |
| C159 | When entropies are as small or as large as possible | proved | EntropyExtremes | The models of PersistenceEntropy (C37), PermutationEntropy (C12) and the filter Entropy (C52) | Equality case of log x ≤ x - 1; strict concavity for the splitting of a lifetime |
| C160 | What ComplexPolynomial keeps of a diagram | proved | PolynomialContent | The model of ComplexPolynomial (C39) | Padded coefficients are those of the polynomial times a power of X; roots of both sides as multisets without zero; the roots of types R and S are injective in the point, moduli of types S and T give the lifetime |
| C161 | The named features of curves | proved | CurveFunctions | The model of StandardFeatures (C79) with the recipes modelled too (Model/CurveFunctions) | Order statistics by counting; Cauchy-Schwarz for standard deviations; (M - a)(a - m) ≥ 0 for their bound |
| C162 | Features of landscapes and Betti curves | proved | LandscapeFeatures | The models of PersistenceLandscape and BettiCurve (C27, C28) followed by that of StandardFeatures with its recipes (C161) | Nearness of order statistics under a matching (C100) with C161_stable; monotonicity of the features; exchange of two sums |

## Disagreements between code and documentation found

Each is a theorem `..._refuted...` (or is stated in the theorem named in the manifest note), not only a remark.

* C02: `C02_refuted` – True for size >= 2 (C02_sliding_resample_aligned_partial); false at size = 1, where resample returns [] (C02_refuted).
* C05: `C05_refuted` – True for dimension >= 2; false at dimension = 1, where resample returns [] (C05_refuted).
* C09: `C09_refuted_unsorted` – Ascending percentile lists; unsorted lists refuted by witness, empty list shown to raise IndexError.
* C10: `C10_documented_length_refuted` – The documented output length n // period is refuted; the true length is the ceiling.
* C14: `C14_refuted_no_fit_transform` – Steps obey the laws of the mixins (proved for classes built on them). A final step with transform but no fit_transform makes fit_transform_resample return None (C14_refuted_no_fit_transform).
* C15: `C15_refuted_trailing_underscore` – Step names ending with an underscore lose their parameters to another step (C15_refuted_trailing_underscore).
* C19: `C19_refuted_three_diagrams` – True for collections with equal counts per dimension and for at most two diagrams; false in general (C19_refuted_three_diagrams).
* C29: `C29_refuted_trivial` – True whenever a weight is positive or power is at most 8; a diagram of trivial points with larger power gives NaN (C29_refuted_trivial).
* C31: `C31_refuted` – True when the fitted lifetime sampling starts at 0, i.e. training data has a diagonal point in each dimension (C31_order_padding_partial); false in general (C31_refuted).
* C34: `C34_refuted_order` – Pseudometrics for p >= 1 and order >= 1 for Betti, heat, image, landscape metrics and (where defined) silhouettes; order < 1, which is allowed, violates the triangle inequality (C34_refuted_order). Bottleneck and Wasserstein distances are covered by C98 under a contract for the engine.
* C36: `C36_refuted_image` – All claims for bottleneck, Wasserstein, Betti, heat, landscape; for persistence images adding diagonal points can change the amplitude (C36_refuted_image); silhouettes where defined.
* C39: `C39_refuted_trivial` – True whenever every diagram has an off-diagonal point in each dimension; with only diagonal points transform raises TypeError because np.poly([]) is a number (C39_refuted_trivial).
* C42: `C42_refuted_stale_limits` – True for uniform covers, for fit-only histories and (in full) for CubicalCover; false for balanced OneDimensionalCover after fit then fit_transform (C42_refuted_stale_limits).
* C48: `C48_refuted_attributes`, `C48_refuted_multiple_edges`, `C48_refuted_loops` – Attributes of an uncontracted survivor and of edges are proved kept (C48_attributes_partial); simplicity and elements of the surviving node are refuted by witnesses.
* C49: `C49_refuted_at_least_one`, `C49_refuted_max_fraction_none` – The number of clusters before the first gap is characterised; the claim of at least one cluster, of one cluster for coinciding samples and of max_fraction=None are refuted.
* C50: `C50_refuted_documented_threshold`
* C51: `C51_refuted_n_jobs`, `C51_refuted_example` – Two parts of the documented behaviour are refuted (C51_refuted_n_jobs, C51_refuted_example); the other theorems hold for all pipelines and names.
* C54: `C54_refuted_contracted` – Proved for contract_nodes=False; with contract_nodes=True a sample can be in no node (refuted).
* C56: `C56_refuted_true_on_numbers`, `C56_refuted_false_on_booleans` – Involution, order reversal, negation and non-negativity proved; false as stated for max_value=True on greyscale images (collapsed to a test for zero) and max_value=False on boolean images (TypeError).
* C57: `C57_refuted_integer_images` – Proved for padding values representable in the dtype of the images; false for a fractional value on integer images (the border is truncated).
* C66: `C66_refuted_undirected_zero_one` – Dense form of the sparse adjacency matrix; C66_transitions says what entries count, C66_refuted_undirected_zero_one refutes the docstring's undirected zero-one matrix.
* C67: `C67_refuted_func_params`, `C67_refuted_witness` – False as stated: C67_refuted_func_params shows func_params never matters, C67_refuted_witness gives a concrete case.
* C68: `C68_refuted_kth_largest` – For matrices of real numbers; the docstring's k-th largest is refuted by C68_refuted_kth_largest.
* C69: `C69_refuted_symmetric`, `C69_refuted_integer_matrices` – Proved for point clouds with every metric (C69_points) and for metric='precomputed' where the factor and matrix are of compatible types; the symmetric reading and integer matrices are refuted.
* C70: `C70_refuted_default_directed` – Relative to a shortest path engine correct on its documented domain (a correct engine exists: correct_engine_exists); default of directed refuted.
* C71: `C71_refuted_isolated_point`, `C71_refuted_last_isolated` – Proved when every point has a Delaunay neighbour; refuted in general.
* C73: `C73_refuted_refit` – Proved for KNeighbors when the data sets are large enough and for Radius always; refuted in general.
* C74: `C74_refuted_not_an_estimator` – Proved for cloneable transformers and any execution order of the jobs; refuted for objects without get_params.
* C75: `C75_refuted_nested_sequences`, `C75_refuted_n_neighbors_type` – Proved for declarations without nested sequences; the code never checks elements of nested sequences (C75_refuted_nested_sequences) nor the declarations keyed by the type object (C75_refuted_n_neighbors_type).
* C76: `C76_refuted_intersects_empty`, `C76_refuted_negative_factor`, `C76_refuted_factor_zero`, `C76_refuted_number_on_the_left` – intersects is characterised for non-empty intervals only: with an empty interval the claim is false (C76_refuted_intersects_empty); the documented arithmetic with negative or zero factors or a number on the left is refuted.
* C77: `C77_refuted_pickling` – False as stated: unpickling raises TypeError for every interval (C77_refuted_pickling). C77_keyword_would_do proves the round trip for the keyword call the class needs.
* C79: `C79_refuted_identity_in_list`, `C79_refuted_none_params`, `C79_refuted_weights_none`, `C79_refuted_rows_mixed`, `C79_refuted_entry_types` – Row layout proved for functions whose output length does not depend on the curve; the rest of the statement is refuted by witnesses.
* C83: `C83_refuted_resample`, `C83_refuted_raises` – False as documented: the result does not depend on the argument (C83_refuted_*). True when targets are passed as second argument (C83_resample_partial).
* C84: `C84_refuted_inverse` – False for steps whose inverse_transform takes one argument, as Scaler's does (C84_refuted_inverse); true for steps that accept a second argument (C84_inverse_partial).
* C85: `C85_refuted_axis_without_keepdims` – Callables with a parameter axis but no keepdims always raise (refuted); proved for all others and for Projection.
* C87: `C87_refuted_set_n_neighbors`, `C87_refuted_witness`, `C87_refuted_set_radii`, `C87_refuted_second_radius_set_to_one` – False as stated: refuted for all states and arguments, and by concrete witnesses.
* C88: `C88_refuted_repeated_dimension` – Proved for all engines, batches, orders and schedules; the irrelevance of repeated dimensions is refuted.
* C90: `C90_refuted_periodic_attribute` – Everything except the attribute periodic_dimensions_, whose documented shape is refuted.
* C91: `C91_refuted_place_in_list` – Proved under the engine contract that the earliest born essential class is listed where the code looks; refuted in general.
* C92: `C92_refuted_constant_column` – Proved when later columns vary or the first is constant; refuted for constant later columns.
* C95: `C95_refuted_verbose`, `C95_refuted_filter` – Proved with the restrictions in the statement; without them refuted (C95_refuted_verbose, C95_refuted_filter).
* C96: `C96_refuted_no_points` – C96_list and C96_array decide acceptance, result and warning; C96_slices shows that an array and the list of its entries are treated alike for entries with rows and columns, C96_refuted_no_points that they are not otherwise; C96_other_errors gives the IndexError and TypeError cases. Conversion of data types and mixtures of sparse and dense matrices of one shape are not covered.
* C101: `C101_refuted_one_birth` – axes claim false when all classes never die and are born together (C101_refuted_one_birth); everything else proved
* C102: `C102_refuted_minus_one` – false for sample=-1 (C102_refuted_minus_one)
* C104: `C104_refuted_dimensions`, `C104_refuted_default_samplings` – false for dimensions other than 0..n-1 and for the default samplings
* C105: `C105_refuted_channels`, `C105_refuted_abscissae` – false for chosen channels and for abscissae
* C107: `C107_refuted_one_coordinate` – false for clouds with one coordinate
* C108: `C108_refuted_stale`, `C108_refuted_constant`, `C108_refuted_white`, `C108_refuted_custom` – C108_params, C108_displayed, C108_widgets and C108_clone hold for every history; C108_valid assumes that plotly_params does not replace data of the traces and that the first 3D plot has coloured hover labels; refuted where drawing fails after fitting (C108_refuted_stale), for 3D plots with nodes of one colour (C108_refuted_constant, C108_refuted_white) and for trace data set by plotly_params (C108_refuted_custom).
* C109: `C109_refuted_diagonal` – Proved for all metrics (C109_cloud) and for precomputed matrices whose diagonal entries are least in their rows (C109_precomputed_partial); for other precomputed matrices refuted (C109_refuted_diagonal). Graphs of sparse input are an opaque engine.
* C110: `C110_refuted_ramp` – The choice, its failure and its invariance are proved for every correct search of neighbours. The last clause is false of the code and refuted: the code compares the value at time i + (2 d - 1) tau with that of the neighbour of point i + d tau, so that for a ramp, in which no pair of points is a false pair, every point is counted (C110_refuted_ramp). What is counted instead is stated in C110_counts for all strides. C110_information states what the mutual information is.
* C111: `C111_refuted_matrix_labels`, `C111_refuted_ignored`, `C111_refuted_frame` – Proved for callable statistics (C111_plot) and for arrays with one axis whenever color_features can be applied (C111_array_partial). The clause that color_features is ignored for arrays is false of the code (C111_refuted_ignored; the examples also show that labels of a dataframe are put on columns of the array), and transformers whose output is a dataframe fail with AttributeError (C111_refuted_frame).
* C113: `C113_refuted_one_bin`, `C113_refuted_failed_fit`, `C113_refuted_not_fitted`, `C113_refuted_jobs` – Proved for all collections, histories and numbers of jobs. A failed fit can replace the homology dimensions of a fitted object (refuted with a witness, partial theorem says exactly what changes), n_bins=1 gives NaN heat kernels (refuted), unequal numbers of points raise or not depending on n_jobs (refuted).
* C114: `C114_refuted_one_bin`, `C114_refuted_rejected_used`, `C114_refuted_unusable`, `C114_refuted_failed_fit`, `C114_refuted_not_fitted` – Exact description of fit and transform of PairwiseDistance and Amplitude for all metrics, with validation and histories, proved. False parts refuted with witnesses: a failed fit may change what transform computes (rejected parameters used, other dimensions, TypeError), AttributeError instead of NotFittedError, n_bins=1 gives NaN amplitudes. Vector metrics are stated for n_bins of at least 2.
* C115: `C115_refuted_no_function`, `C115_refuted_not_fitted`, `C115_refuted_negative_scale`, `C115_refuted_zero_scale` – Scale, results, round trip for positive scales, units, idempotence, histories and failures proved. False parts refuted with witnesses: function=None accepted but TypeError in fit, negative and zero scales, AttributeError instead of NotFittedError.
* C116: `C116_refuted_threshold`, `C116_refuted_training_images`, `C116_refuted_failed_fit`, `C116_refuted_not_fitted` – Results, training data, order of execution and histories proved for all seven classes; parameter changes after fit and failed fits hold only under conditions (C116_set_after_fit_partial, C116_failed_fit_partial) and are refuted in general with witnesses.
* C118: `C118_refuted_resample`, `C118_refuted_incomplete` – False of resample (C118_refuted_resample): a nested pipeline ignores the targets it is given; and of inner pipelines that end with a step without fit_transform (C118_refuted_incomplete). The rest is proved, for pipelines as constructed, after fitting (C118_fitted) and after any history of fits, failed ones included (C118_history); names of inner pipelines must not end with an underscore (see C15).
* C119: `C119_refuted_resample` – False of resample, which needs the method of all steps although it is there if the final step has it (C119_refuted_resample; what is true of it: C119_resample_partial); the rest is proved.
* C120: `C120_refuted_stale_tree`, `C120_refuted_linkage_one_sample` – proved in full except that children_, n_leaves_ and distances_ stay from an earlier fit when the new data is a single sample, and that linkage is not checked then (C120_refuted_…)
* C121: `C121_refuted_attribute_error` – proved in full except the last sentence, which is false of CubicalCover after a change of kind (C121_refuted_attribute_error)
* C122: `C122_refuted_other_columns`, `C122_refuted_knn_stateless`, `C122_refuted_transition_parameters`, `C122_refuted_failed_fit` – Proved for the eleven classes that only set a flag, for ImageToPointCloud as far as accepted fits go, and for KNeighborsGraph as long as parameter changes keep the kind of metric. False otherwise, refuted with witnesses: a refused fit of KNeighborsGraph changes what transform accepts, and a change of metric is followed only in part; TransitionGraph ignores changes of func until the next fit; an ImageToPointCloud whose fit raised counts as fitted; Projection.fit refuses data frames for columns that are not selected.
* C123: `C123_refuted_union_list`, `C123_refuted_own_fit_transform` – Unions, identity, rows, collections and nerves proved for every schedule and history. False: fit_transform of an extended class is the wrapped class's own fit_transform if it has one, not fit followed by the method (C123_refuted_own_fit_transform, e.g. KMeans with predict); a union whose steps are all dropped returns an array and not a list (C123_refuted_union_list). Collections: for cloneable transformers, the others are refuted in C74.
* C124: `C124_refuted_failed_fit`, `C124_refuted_shared_list` – Proved for PersistenceEntropy, NumberOfPoints and Filtering. ComplexPolynomial: proved unless a later fit fails half way or the list passed as n_coefficients is changed; both are refuted (C124_refuted_failed_fit: homology_dimensions_ is replaced before the ValueError, and transform then raises IndexError; C124_refuted_shared_list: n_coefficients_ is the caller's list).
* C125: `C125_refuted_ties`, `C125_refuted_metric`, `C125_refuted_failed_fit` – False in general: the two searches of KNeighborsLocalVietorisRips need not agree about ties, a metric set after fit is combined with the neighbourhoods of the old one, and a failed fit replaces the transformer of persistent homology (refuted with witnesses). Proved for radii after any history, for numbers of neighbours without ties and with large enough training sets (small ones: C73); a single training point is refused by KNeighborsLocalVietorisRips. Searches, pdist and the engine are parameters with their documented contracts.
* C126: `C126_refuted_size`, `C126_refuted_failed_fit`, `C126_refuted_func` – Proved for parameter changes that keep size and function (Labeller) and for dimension at least two (SingleTakensEmbedding), after any history. False otherwise: changing size after fit or a refused second fit makes the two methods return different numbers of entries, and a changed function is compared with old thresholds (refuted with witnesses).
* C127: `C127_refuted_equality`, `C127_refuted_floordiv_open`, `C127_refuted_floordiv_infinite`, `C127_refuted_floordiv_negative` – Proved for midpoint, length, open sides, text, hashes, and for floor division of intervals closed on both sides by positive numbers. False otherwise: floor division of open or unbounded intervals or by negative numbers, and intervals with the same value are not equal although they have the same hash (refuted).
* C128: `C128_refuted_increasing`, `C128_refuted_contracted` – Proved without contract_nodes for the order of the samples, with and without it for the other parts. With contract_nodes=True the graph depends on the order of the samples (refuted with a witness); a uniform cover reacts to increasing functions that are not affine (witness).
* C129: `C129_refuted_not_fitted`, `C129_refuted_larger_images`, `C129_refuted_failed_refit_height`, `C129_refuted_failed_refit_radial`, `C129_refuted_radial_broadcast`, `C129_refuted_density_axes` – Acceptance of fit, NotFittedError before any fit, and determination of transform by the last accepted fit are proved over all histories for Binarizer, Inverter, Padder and the three filtrations by dilation; for height, radial and density filtrations over all histories before an accepted fit and all harmless ones after it. Refuted: after a refused fit transform may raise AttributeError instead of NotFittedError; a refused fit can spoil a fitted height, radial or density filtration (the radial one silently gives wrong values); n_iterations=None does not reach all pixels of images larger than those of fit; radial filtrations broadcast along training axes of length 1; density filtrations fitted in 2D count within slices only in 3D.
* C130: `C130_refuted_heat_sigma`, `C130_refuted_filtering_origin`, `C130_refuted_entropy_normalized`, `C130_refuted_scaler` – Where results do depend on the unit or the origin is stated by the C130_refuted_ theorems. Heat kernels and images: the smoothing filter may be any function of sigma divided by the step.
* C131: `C131_refuted_origin`, `C131_refuted_keys`, `C131_refuted_last_sample` – All plot methods for heat maps, clouds and filtered diagrams, and fit_transform_plot. Refuted for validation: values of origin other than 'lower' are taken for 'upper' and unknown keys of plotly_params are ignored without an error.
* C133: `C133_refuted_own_log`, `C133_refuted_replot`, `C133_refuted_shared` – False for several plots: C133_refuted_own_log, C133_refuted_replot, C133_refuted_shared; C133_own_log_partial is for sessions in which values are entered in one plot only and the front end empties the log in time, C133_log describes the logs in general.
* C134: `C134_refuted_returns`, `C134_refuted_empty` – The docstring is proved for Returns sections of one paragraph and sections occurring once; refuted for several paragraphs (C134_refuted_returns) and for standard docstrings with an empty section (C134_refuted_empty). The standard docstring of scikit-learn and the word characters are parameters.
* C135: `C135_refuted_takens_of_resampled`, `C135_refuted_later_samples` – Proved in full except that the law about resampling before an embedding needs a number of samples that is one more than a multiple of the time delay, and that windows move when the number of later samples is no multiple of the stride (C135_refuted_…).
* C136: `C136_refuted_pad_invert`, `C136_refuted_binarize_twice` – False in part, with witnesses: a maximum learnt from padded images includes the padding value, so the two orders of Padder and Inverter differ when it exceeds all pixels (C136_refuted_pad_invert); binarizing twice is not binarizing once for negative images with threshold 1 (C136_refuted_binarize_twice). The rest is proved for all collections.
* C138: `C138_refuted_array`, `C138_refuted_broken`, `C138_refuted_sparse_none` – False in parts: the array of no intervals has dimension 1 (C138_refuted_array), SparseRipsComplex raises for sparse=None (C138_refuted_sparse_none), and a refused call of persistence after a successful one makes the object unusable (C138_refuted_broken). Proved: constructors, history independence, stale Betti numbers of the last call, the calls of the transformers. Compiled code is a parameter.
* C140: `C140_refuted_betti`, `C140_refuted_number`, `C140_refuted_entropy` – Bottleneck amplitudes, Betti distances (p=1, up to the sampling), entropies and silhouettes of diagrams with off-diagonal points. The conditions are needed: Betti distances without the term for the sampling and entropies of diagonal diagrams jump (C140_refuted_betti, C140_refuted_entropy), as do numbers of points (C140_refuted_number). Landscapes are treated in C100.
* C143: `C143_refuted_nothing_left`, `C143_refuted_same_threshold`, `C143_refuted_wasserstein`, `C143_refuted_block_order` – all stated parts are proved; the limits of the statement are proved as refutations with witnesses
* C144: `C144_refuted_small_fraction`, `C144_refuted_freq_threshold`, `C144_refuted_bins_start`, `C144_refuted_more_intervals` – Nesting of covers in the overlap, monotonicity of FirstSimpleGap and freedom from units of both gap clusterers; the false neighbours are refuted with witnesses. The tree builder and the cut are parameters.
* C145: `C145_refuted_betti_sup` – Explicit error bounds in the number of bins for all orders p; the claim for Betti curves with infinite p is refuted. Real arithmetic instead of floating point, as for C114.
* C146: `C146_refuted_set_order`, `C146_refuted_large_overlap` – All stated parts are proved; the false neighbours are refuted with witnesses.
* C147: `C147_refuted_birth`, `C147_refuted_peak` – Positivity of layers at births and equality of sup landscape and bottleneck amplitudes are false (C147_refuted_birth, C147_refuted_peak)
* C148: `C148_refuted_overlap` – The identities and bounds are proved for uniform and balanced covers with overlap at most one half, as stated; the triangle for larger overlaps is C148_refuted_overlap. Scaler, filter function, preprocessing and clusterers are parameters.
* C149: `C149_refuted_triangle` – Over the reals, as C13; constant variables give NaN (0/0) in exact arithmetic. The triangle inequality without square roots is C149_refuted_triangle.
* C152: `C152_refuted_recover`, `C152_refuted_entropy` – For univariate series; order patterns as in C12 (ties in order of position).
* C153: `C153_refuted_weighted` – Shortest-path engines are a parameter: any engine that returns least lengths of walks. Weighted distances: C153_refuted_weighted shows what the default does.
* C154: `C154_refuted_erosion_union` – all clauses; erosions of unions: witness that they are not maxima
* C155: `C155_refuted_dropped_samples` – False if a step drops samples: C155_refuted_dropped_samples. C155_weights_partial says what the final estimator receives, C155_no_resampling covers all pipelines without resampling steps, C155_remedy how to obtain weights in place.
* C160: `C160_refuted_T`, `C160_refuted_few` – Exact real arithmetic. C160_refuted_T and C160_refuted_few are the witnesses for what is lost.
* C161: `C161_refuted_argmax` – Exact real arithmetic. np.average with weights is not modelled. C161_refuted_argmax is the witness for positions.

## Not expressible in the model

Floating-point rounding, performance and memory use, rendering of figures, the C++ backends, joblib memory caching on disk, randomness of
third-party estimators.
