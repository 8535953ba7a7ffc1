import Verif.Model.MapperParams

/-!
# What setting and reading Mapper parameters should do

Only the types `Val` and `Slots` (the values a Mapper pipeline is built from) are taken from the
model, and `getParams`, scikit-learn's `get_params`.
-/

set_option autoImplicit false

namespace Gtda.Spec.MParams

open Gtda.MParams

variable {A : Type}

/-- The value of a parameter after `set_params(**kw)`: the one given, or the old one. -/
def newValue (kw : List (List Char × Val A)) (name : String) (old : Val A) : Val A :=
  kw.foldl (fun acc p => if p.1 = name.toList then p.2 else acc) old

/-- The names of the parameters of a Mapper pipeline, without and with the step which makes the
graph. -/
def mapperNames (graph : Bool) : List String :=
  ["memory", "verbose", "scaler", "filter_func", "cover", "clustering_preprocessing", "clusterer",
    "n_jobs", "parallel_backend_prefer"] ++
  if graph then ["min_intersection", "store_edge_elements", "contract_nodes"] else []

/-- The values of the pipeline after `set_params(**kw)`. -/
def afterSet (s : Slots A) (kw : List (List Char × Val A)) : Slots A :=
  { s with
    memory := newValue kw "memory" s.memory
    verbose := newValue kw "verbose" s.verbose
    scaler := newValue kw "scaler" s.scaler
    filter := newValue kw "filter_func" s.filter
    cover := newValue kw "cover" s.cover
    prepr := newValue kw "clustering_preprocessing" s.prepr
    clusterer := newValue kw "clusterer" s.clusterer
    jobs := newValue kw "n_jobs" s.jobs
    prefer := newValue kw "parallel_backend_prefer" s.prefer
    nerve := s.nerve.map fun t =>
      (newValue kw "min_intersection" t.1, newValue kw "store_edge_elements" t.2.1,
        newValue kw "contract_nodes" t.2.2) }

/-- The entries by which a parameter is reported: itself, and the parameters it contains under its
name and a double underscore. -/
def entries (name : String) (v : Val A) : List (List Char × Val A) :=
  (name.toList, v) :: (getParams v).map fun p => (name.toList ++ "__".toList ++ p.1, p.2)

/-- What `get_mapper_params()` reports: every parameter but the number of jobs. -/
def reported (s : Slots A) : List (List Char × Val A) :=
  [("memory".toList, s.memory), ("verbose".toList, s.verbose)] ++
  entries "scaler" s.scaler ++ entries "filter_func" s.filter ++ entries "cover" s.cover ++
  entries "clustering_preprocessing" s.prepr ++ entries "clusterer" s.clusterer ++
  entries "parallel_backend_prefer" s.prefer ++
  match s.nerve with
  | none => []
  | some t => entries "min_intersection" t.1 ++ entries "store_edge_elements" t.2.1 ++
      entries "contract_nodes" t.2.2

/-- The values a Mapper pipeline reports. -/
def slotValues (s : Slots A) : List (Val A) :=
  [s.scaler, s.filter, s.cover, s.prepr, s.clusterer, s.prefer] ++
  match s.nerve with
  | none => []
  | some t => [t.1, t.2.1, t.2.2]

/-- The parameters an object contains have different names. -/
def DistinctNames (v : Val A) : Prop := ((getParams v).map Prod.fst).Nodup

/-- All arguments of `make_mapper_pipeline` but `graph_step`, with their names. -/
def arguments (a : MakeArgs A) : List (List Char × Val A) :=
  [("scaler".toList, a.scaler), ("filter_func".toList, a.filter), ("cover".toList, a.cover),
    ("clustering_preprocessing".toList, a.prepr), ("clusterer".toList, a.clusterer),
    ("n_jobs".toList, a.jobs), ("parallel_backend_prefer".toList, a.prefer),
    ("memory".toList, a.memory), ("verbose".toList, a.verbose)] ++
  if a.graphStep then
    [("min_intersection".toList, a.minInter), ("store_edge_elements".toList, a.store),
      ("contract_nodes".toList, a.contract)]
  else []

/-- The arguments which may be `None` to ask for a default are given, and the filter is a
transformer. -/
def AllGiven (isNone hasFitTransform : Val A → Bool) (a : MakeArgs A) : Prop :=
  isNone a.scaler = false ∧ isNone a.filter = false ∧ hasFitTransform a.filter = true ∧
  isNone a.cover = false ∧ isNone a.prepr = false ∧ isNone a.clusterer = false

end Gtda.Spec.MParams
