import Verif.Py.Basic

/-!
# Parameters of Mapper pipelines

Models `gtda/mapper/pipeline.py` and the parts of scikit-learn's parameter protocol it calls:
`BaseEstimator.get_params`, `BaseEstimator.set_params` and, for pipelines and feature unions,
`_BaseComposition._get_params` and `_BaseComposition._set_params`.  Parameter names are lists of
characters.  An estimator is a tree; that one Python object may be used in two places of a pipeline
(and is then changed in both) is not modelled.
-/

set_option autoImplicit false

namespace Gtda.MParams

open Py

/-- A parameter name. Used in `globalParams`, gtda/mapper/pipeline.py:11. -/
abbrev Name : Type := List Char

mutual

/-- A value of a parameter: something without parameters, the list of steps of a composition, or an
estimator.  An estimator has constructor parameters; a composition (`Pipeline`, `FeatureUnion`)
also has the name of the attribute which holds its named steps, and these steps. Used in `subsetKwargs`, gtda/mapper/pipeline.py:122-125. -/
inductive Val (A : Type) where
  | atom (a : A)
  | steps (f : Fields A)
  | est (attr : Option Name) (own : Fields A) (kids : Fields A)

/-- Named values. Used in `subsetKwargs`, gtda/mapper/pipeline.py:122-125. -/
inductive Fields (A : Type) where
  | nil
  | cons (n : Name) (v : Val A) (rest : Fields A)

end

namespace Fields

variable {A : Type}

/-- The named values as a list. Used in `getMapperParams`, gtda/mapper/pipeline.py:59-81. -/
def toList : Fields A → List (Name × Val A)
  | nil => []
  | cons n v rest => (n, v) :: rest.toList

/-- The value of a name. Used in `setGroup`, gtda/mapper/pipeline.py:98-117. -/
def get? : Fields A → Name → Option (Val A)
  | nil, _ => none
  | cons n v rest, k => if n = k then some v else rest.get? k

/-- Replacement of the value of a name, as `setattr` does for a constructor parameter and
`_replace_estimator` for a step. Called through gtda/mapper/pipeline.py:98-117. -/
def set : Fields A → Name → Val A → Fields A
  | nil, _, _ => nil
  | cons n v rest, k, w => if n = k then cons n w rest else cons n v (rest.set k w)

/-- The names. Used in `setGroup`, gtda/mapper/pipeline.py:98-117. -/
def names (f : Fields A) : List Name := f.toList.map Prod.fst

end Fields

section

variable {A : Type}

/-- Two underscores. Used in `preprPrefix`, gtda/mapper/pipeline.py:17. -/
def sep : Name := ['_', '_']

/-- `key.partition("__")`: the parts before and after the first double underscore, if there is
one. Used in `setGroup`, gtda/mapper/pipeline.py:98-117. -/
def splitKey : Name → Option (Name × Name)
  | [] => none
  | c :: cs =>
      match c, cs with
      | '_', '_' :: rest => some ([], rest)
      | _, _ => (splitKey cs).map fun p => (c :: p.1, p.2)

mutual

/-- `get_params(deep=True)`: for a composition the attribute with the steps, the constructor
parameters with those of the estimators among them under a prefix, then the steps and the parameters
of the steps under a prefix. Used in `getMapperParams`, gtda/mapper/pipeline.py:59-81. -/
def getParams : Val A → List (Name × Val A)
  | .atom _ => []
  | .steps _ => []
  | .est attr own kids =>
      (match attr with
        | none => []
        | some a => [(a, .steps kids)]) ++ (deepOwn own ++ (kids.toList ++ deepKids kids))

/-- Constructor parameters, each after the parameters it contains. Used in `getMapperParams`, gtda/mapper/pipeline.py:59-81. -/
def deepOwn : Fields A → List (Name × Val A)
  | .nil => []
  | .cons n v rest =>
      (getParams v).map (fun p => (n ++ sep ++ p.1, p.2)) ++ ((n, v) :: deepOwn rest)

/-- Parameters of the steps. Used in `getMapperParams`, gtda/mapper/pipeline.py:59-81. -/
def deepKids : Fields A → List (Name × Val A)
  | .nil => []
  | .cons n v rest => (getParams v).map (fun p => (n ++ sep ++ p.1, p.2)) ++ deepKids rest

end

/-- `get_params(deep=False)`: only the attribute with the steps and the constructor parameters. Used in `getMapperParams`, gtda/mapper/pipeline.py:59-81. -/
def getParamsShallow : Val A → List (Name × Val A)
  | .est attr own kids =>
      (match attr with
        | none => []
        | some a => [(a, .steps kids)]) ++ own.toList
  | _ => []

/-- The names which are set directly or through which nested parameters are set: the keys of
`get_params()`. Used in `setGroup`, gtda/mapper/pipeline.py:98-117. -/
def validNames (v : Val A) : List Name := (getParams v).map Prod.fst

/-- One pass of `BaseEstimator.set_params` over the keyword arguments: a name without double
underscore is assigned at once, the others are collected by their first part.  Returns the
constructor parameters, the collected arguments and the error, if there was one. Used in `setGroup`, gtda/mapper/pipeline.py:98-117. -/
def assignLoop (valid : List Name) :
    List (Name × Val A) → Fields A → List (Name × List (Name × Val A)) →
      Fields A × List (Name × List (Name × Val A)) × Option PyErr
  | [], own, nested => (own, nested, none)
  | (key, v) :: rest, own, nested =>
      match splitKey key with
      | none =>
          if key ∈ valid then assignLoop valid rest (own.set key v) nested
          else (own, nested, some .valueError)
      | some (k, sub) =>
          if k ∈ valid then
            assignLoop valid rest own
              (if nested.any (fun g => g.1 = k) then
                nested.map fun g => if g.1 = k then (g.1, g.2 ++ [(sub, v)]) else g
              else nested ++ [(k, [(sub, v)])])
          else (own, nested, some .valueError)

/-- The steps after `_BaseComposition._set_params` has replaced those named by a keyword argument
without double underscore. Used in `setGroup`, gtda/mapper/pipeline.py:98-117. -/
def replaceKids (kids : Fields A) : List (Name × Val A) → Fields A
  | [] => kids
  | (key, v) :: rest =>
      replaceKids (if splitKey key = none ∧ key ∈ kids.names then kids.set key v else kids) rest

/-- The keyword arguments that are left after steps were replaced. Used in `setGroup`, gtda/mapper/pipeline.py:98-117. -/
def leftOver (kids : Fields A) (kw : List (Name × Val A)) : List (Name × Val A) :=
  kw.filter fun p => ¬ (splitKey p.1 = none ∧ p.1 ∈ kids.names)

/-- The second part of `BaseEstimator.set_params`: `set_params` of the values named by the first
parts, in the order of their first occurrence; an error ends it.  `rec` is `set_params`. Used in `setGroup`, gtda/mapper/pipeline.py:98-117. -/
def nestedLoop (rec : Val A → List (Name × Val A) → Val A × Option PyErr) :
    List (Name × List (Name × Val A)) → Fields A → Fields A → Fields A × Fields A × Option PyErr
  | [], own, kids => (own, kids, none)
  | (k, kw) :: rest, own, kids =>
      match kids.get? k with
      | some v =>
          match rec v kw with
          | (v', none) => nestedLoop rec rest own (kids.set k v')
          | (v', some e) => (own, kids.set k v', some e)
      | none =>
          match own.get? k with
          | some v =>
              match rec v kw with
              | (v', none) => nestedLoop rec rest (own.set k v') kids
              | (v', some e) => (own.set k v', kids, some e)
          | none => (own, kids, some .attributeError)

/-- `set_params` of an estimator: the new state and the error, if one was raised.  The first argument
is the number of nested calls the interpreter still allows.  Assigning the attribute which holds the
steps is not modelled; the other arguments are. Used in `setGroup`, gtda/mapper/pipeline.py:98-117. -/
def setParams : Nat → Val A → List (Name × Val A) → Val A × Option PyErr
  | 0, v, _ => (v, some .overflowError)
  | _ + 1, .atom a, _ => (.atom a, some .attributeError)
  | _ + 1, .steps f, _ => (.steps f, some .attributeError)
  | depth + 1, .est attr own kids, kw =>
      let kids1 := replaceKids kids kw
      let kw1 := leftOver kids kw
      match assignLoop (validNames (.est attr own kids1)) kw1 own [] with
      | (own1, _, some e) => (.est attr own1 kids1, some e)
      | (own1, nested, none) =>
          match nestedLoop (setParams depth) nested own1 kids1 with
          | (own2, kids2, err) => (.est attr own2 kids2, err)

/-! ## The Mapper pipeline -/

/-- The string `"memory"`. Used in `globalParams`, gtda/mapper/pipeline.py:11. -/
def nMemory : Name :=
  ['m', 'e', 'm', 'o', 'r', 'y']
/-- The string `"verbose"`. Used in `globalParams`, gtda/mapper/pipeline.py:11. -/
def nVerbose : Name :=
  ['v', 'e', 'r', 'b', 'o', 's', 'e']
/-- The string `"steps"`. Used in `cleanDictKeys`, gtda/mapper/pipeline.py:127-140. -/
def nSteps : Name :=
  ['s', 't', 'e', 'p', 's']
/-- The string `"transformer_list"`. Used in `cleanDictKeys`, gtda/mapper/pipeline.py:127-140. -/
def nTransformerList : Name :=
  ['t', 'r', 'a', 'n', 's', 'f', 'o', 'r', 'm', 'e', 'r', '_', 'l', 'i', 's', 't']
/-- The string `"transformer_weights"`. Used in `cleanDictKeys`, gtda/mapper/pipeline.py:127-140. -/
def nTransformerWeights : Name :=
  ['t', 'r', 'a', 'n', 's', 'f', 'o', 'r', 'm', 'e', 'r', '_', 'w', 'e', 'i', 'g', 'h', 't',
    's']
/-- The string `"scaler"`. Used in `nodesParams`, gtda/mapper/pipeline.py:12. -/
def nScaler : Name :=
  ['s', 'c', 'a', 'l', 'e', 'r']
/-- The string `"filter_func"`. Used in `nodesParams`, gtda/mapper/pipeline.py:12. -/
def nFilter : Name :=
  ['f', 'i', 'l', 't', 'e', 'r', '_', 'f', 'u', 'n', 'c']
/-- The string `"cover"`. Used in `nodesParams`, gtda/mapper/pipeline.py:12. -/
def nCover : Name :=
  ['c', 'o', 'v', 'e', 'r']
/-- The string `"clustering_preprocessing"`. Used in `preprParams`, gtda/mapper/pipeline.py:13. -/
def nPrepr : Name :=
  ['c', 'l', 'u', 's', 't', 'e', 'r', 'i', 'n', 'g', '_', 'p', 'r', 'e', 'p', 'r', 'o', 'c',
    'e', 's', 's', 'i', 'n', 'g']
/-- The string `"clusterer"`. Used in `clustParams`, gtda/mapper/pipeline.py:14-15. -/
def nClusterer : Name :=
  ['c', 'l', 'u', 's', 't', 'e', 'r', 'e', 'r']
/-- The string `"n_jobs"`. Used in `clustParams`, gtda/mapper/pipeline.py:14-15. -/
def nJobs : Name :=
  ['n', '_', 'j', 'o', 'b', 's']
/-- The string `"parallel_backend_prefer"`. Used in `clustParams`, gtda/mapper/pipeline.py:14-15. -/
def nPrefer : Name :=
  ['p', 'a', 'r', 'a', 'l', 'l', 'e', 'l', '_', 'b', 'a', 'c', 'k', 'e', 'n', 'd', '_', 'p',
    'r', 'e', 'f', 'e', 'r']
/-- The string `"min_intersection"`. Used in `nerveParams`, gtda/mapper/pipeline.py:16. -/
def nMinInter : Name :=
  ['m', 'i', 'n', '_', 'i', 'n', 't', 'e', 'r', 's', 'e', 'c', 't', 'i', 'o', 'n']
/-- The string `"store_edge_elements"`. Used in `nerveParams`, gtda/mapper/pipeline.py:16. -/
def nStore : Name :=
  ['s', 't', 'o', 'r', 'e', '_', 'e', 'd', 'g', 'e', '_', 'e', 'l', 'e', 'm', 'e', 'n', 't',
    's']
/-- The string `"contract_nodes"`. Used in `nerveParams`, gtda/mapper/pipeline.py:16. -/
def nContract : Name :=
  ['c', 'o', 'n', 't', 'r', 'a', 'c', 't', '_', 'n', 'o', 'd', 'e', 's']
/-- The string `"pullback_cover"`. Used in `preprPrefix`, gtda/mapper/pipeline.py:17. -/
def nPullback : Name :=
  ['p', 'u', 'l', 'l', 'b', 'a', 'c', 'k', '_', 'c', 'o', 'v', 'e', 'r']
/-- The string `"map_and_cover"`. Used in `nodesPrefix`, gtda/mapper/pipeline.py:18. -/
def nMapAndCover : Name :=
  ['m', 'a', 'p', '_', 'a', 'n', 'd', '_', 'c', 'o', 'v', 'e', 'r']
/-- The string `"clustering"`. Used in `clustPrefix`, gtda/mapper/pipeline.py:19. -/
def nClustering : Name :=
  ['c', 'l', 'u', 's', 't', 'e', 'r', 'i', 'n', 'g']
/-- The string `"nerve"`. Used in `nervePrefix`, gtda/mapper/pipeline.py:20. -/
def nNerve : Name :=
  ['n', 'e', 'r', 'v', 'e']

/-- `global_pipeline_params` (`pipeline.py:11`). -/
def globalParams : List Name := [nMemory, nVerbose]
/-- `nodes_params` (`pipeline.py:12`). -/
def nodesParams : List Name := [nScaler, nFilter, nCover]
/-- `clust_prepr_params` (`pipeline.py:13`). -/
def preprParams : List Name := [nPrepr]
/-- `clust_params` (`pipeline.py:14-15`). -/
def clustParams : List Name := [nClusterer, nJobs, nPrefer]
/-- `nerve_params` (`pipeline.py:16`). -/
def nerveParams : List Name := [nMinInter, nStore, nContract]
/-- `clust_prepr_params_prefix` (`pipeline.py:17`). -/
def preprPrefix : Name := nPullback ++ sep
/-- `nodes_params_prefix` (`pipeline.py:18`). -/
def nodesPrefix : Name := nPullback ++ sep ++ (nMapAndCover ++ sep)
/-- `clust_params_prefix` (`pipeline.py:19`). -/
def clustPrefix : Name := nClustering ++ sep
/-- `nerve_params_prefix` (`pipeline.py:20`). -/
def nervePrefix : Name := nNerve ++ sep

/-- `_subset_kwargs` (`pipeline.py:122-125`): the arguments whose name starts with one of the
strings. -/
def subsetKwargs (kw : List (Name × Val A)) (strings : List Name) : List (Name × Val A) :=
  kw.filter fun p => strings.any fun s => s.isPrefixOf p.1

/-- `_clean_dict_keys` (`pipeline.py:127-140`). -/
def cleanDictKeys (params : List (Name × Val A)) (pre : Name) : List (Name × Val A) :=
  (params.filter fun p => pre.isPrefixOf p.1 &&
      ![nSteps, nMemory, nVerbose, nTransformerList, nJobs, nTransformerWeights, nMapAndCover].any
        fun s => (pre ++ s).isPrefixOf p.1).map
    fun p => (p.1.drop pre.length, p.2)

/-- `pipeline_params[param]` (`pipeline.py:75`); the last of several entries counts. -/
def lookupParam (params : List (Name × Val A)) (k : Name) : PyM (Val A) :=
  match (params.filter fun p => p.1 = k).getLast? with
  | some p => pure p.2
  | none => .error .keyError

/-- `get_mapper_params` (`pipeline.py:59-81`), as the list of entries merged by the code. -/
def getMapperParams (v : Val A) (deep : Bool) : PyM (List (Name × Val A)) := do
  let params := if deep then getParams v else getParamsShallow v
  let globals ← globalParams.mapM fun k => do
    let w ← lookupParam params k
    pure (k, w)
  pure (globals ++ cleanDictKeys params nodesPrefix ++ cleanDictKeys params preprPrefix ++
    cleanDictKeys params clustPrefix ++ cleanDictKeys params nervePrefix)

/-- One `if` of `set_params` (`pipeline.py:98-117`): the arguments of one group are set under the
prefix, if there are any; after an error nothing more happens. -/
def setGroup (depth : Nat) (pre : Name) (group : List (Name × Val A))
    (st : Val A × Option PyErr) : Val A × Option PyErr :=
  match st with
  | (v, some e) => (v, some e)
  | (v, none) =>
      if group.isEmpty then (v, none)
      else setParams depth v (group.map fun p => (pre ++ p.1, p.2))

/-- `MapperPipeline.set_params` (`pipeline.py:83-120`). -/
def setMapperParams (depth : Nat) (v : Val A) (kw : List (Name × Val A)) : Val A × Option PyErr :=
  let groups := nodesParams ++ preprParams ++ clustParams ++ nerveParams
  let rest := kw.filter fun p => ¬ groups.any fun s => s.isPrefixOf p.1
  let st := setGroup depth nodesPrefix (subsetKwargs kw nodesParams) (v, none)
  let st := setGroup depth preprPrefix (subsetKwargs kw preprParams) st
  let st := setGroup depth clustPrefix (subsetKwargs kw clustParams) st
  let st := setGroup depth nervePrefix (subsetKwargs kw nerveParams) st
  match st with
  | (v, some e) => (v, some e)
  | (v, none) => setParams depth v rest

/-- The values a Mapper pipeline is built from.  `nerve` is absent if `graph_step` is `False`. Used in `mapAndCover`, gtda/mapper/pipeline.py:403-407. -/
structure Slots (A : Type) where
  memory : Val A
  verbose : Val A
  scaler : Val A
  filter : Val A
  cover : Val A
  prepr : Val A
  clusterer : Val A
  jobs : Val A
  prefer : Val A
  nerve : Option (Val A × Val A × Val A)
  /-- The other constructor parameters of the inner pipeline and of the feature union, which the
  Mapper parameters do not reach: `memory` and `verbose` of the inner pipeline; `n_jobs`,
  `transformer_weights` and `verbose` of the feature union. -/
  innerMemory : Val A
  innerVerbose : Val A
  unionJobs : Val A
  unionWeights : Val A
  unionVerbose : Val A

/-- The inner pipeline `map_and_cover` (`pipeline.py:403-407`). -/
def mapAndCover (s : Slots A) : Val A :=
  .est (some nSteps)
    (.cons nMemory s.innerMemory (.cons nVerbose s.innerVerbose .nil))
    (.cons nScaler s.scaler (.cons nFilter s.filter (.cons nCover s.cover .nil)))

/-- The feature union `pullback_cover` (`pipeline.py:410-412`). -/
def pullbackCover (s : Slots A) : Val A :=
  .est (some nTransformerList)
    (.cons nJobs s.unionJobs (.cons nTransformerWeights s.unionWeights
      (.cons nVerbose s.unionVerbose .nil)))
    (.cons nPrepr s.prepr (.cons nMapAndCover (mapAndCover s) .nil))

/-- The clustering step (`pipeline.py:413-416`). -/
def clusteringStep (s : Slots A) : Val A :=
  .est none (.cons nClusterer s.clusterer (.cons nJobs s.jobs (.cons nPrefer s.prefer .nil))) .nil

/-- The nerve step (`pipeline.py:419-424`). -/
def nerveStep (t : Val A × Val A × Val A) : Val A :=
  .est none (.cons nMinInter t.1 (.cons nStore t.2.1 (.cons nContract t.2.2 .nil))) .nil

/-- The last step, if the graph is made (`pipeline.py:419-424`). -/
def nerveKids : Option (Val A × Val A × Val A) → Fields A
  | none => .nil
  | some t => .cons nNerve (nerveStep t) .nil

/-- The Mapper pipeline (`pipeline.py:409-427`). -/
def mapperPipeline (s : Slots A) : Val A :=
  .est (some nSteps)
    (.cons nMemory s.memory (.cons nVerbose s.verbose .nil))
    (.cons nPullback (pullbackCover s) (.cons nClustering (clusteringStep s) (nerveKids s.nerve)))

/-! ## Building the pipeline -/

/-- What `make_mapper_pipeline` falls back to (`pipeline.py:370-401`), and the values `None` and
`False`, which are the defaults of the constructor parameters it does not pass on. -/
structure Defaults (A : Type) where
  scaler : Val A
  filter : Val A
  cover : Val A
  prepr : Val A
  clusterer : Val A
  noneV : Val A
  falseV : Val A

/-- The arguments of `make_mapper_pipeline` (`pipeline.py:143-156`). -/
structure MakeArgs (A : Type) where
  scaler : Val A
  filter : Val A
  cover : Val A
  prepr : Val A
  clusterer : Val A
  jobs : Val A
  prefer : Val A
  graphStep : Bool
  minInter : Val A
  store : Val A
  contract : Val A
  memory : Val A
  verbose : Val A

/-- The filter step (`pipeline.py:374-384`): `None` stands for the default, and a filter without
`fit_transform` is wrapped by `transformer_from_callable_on_rows`. -/
def makeFilter (d : Defaults A) (isNone hasFitTransform : Val A → Bool)
    (wrap : Val A → PyM (Val A)) (f : Val A) : PyM (Val A) :=
  if isNone f then pure d.filter else if hasFitTransform f then pure f else wrap f

/-- `make_mapper_pipeline` (`pipeline.py:143-429`).  `isNone` and `hasFitTransform` inspect a value,
`wrap` is `transformer_from_callable_on_rows`. -/
def makeMapperPipeline (d : Defaults A) (isNone hasFitTransform : Val A → Bool)
    (wrap : Val A → PyM (Val A)) (a : MakeArgs A) : PyM (Val A) := do
  let filter ← makeFilter d isNone hasFitTransform wrap a.filter
  pure (mapperPipeline
    { memory := a.memory
      verbose := a.verbose
      scaler := if isNone a.scaler then d.scaler else a.scaler
      filter := filter
      cover := if isNone a.cover then d.cover else a.cover
      prepr := if isNone a.prepr then d.prepr else a.prepr
      clusterer := if isNone a.clusterer then d.clusterer else a.clusterer
      jobs := a.jobs
      prefer := a.prefer
      nerve := if a.graphStep then some (a.minInter, a.store, a.contract) else none
      innerMemory := d.noneV
      innerVerbose := a.verbose
      unionJobs := d.noneV
      unionWeights := d.noneV
      unionVerbose := d.falseV })

end

end Gtda.MParams
