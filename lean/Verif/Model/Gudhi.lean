import Verif.Model.Persistence

set_option autoImplicit false

/-!
# The Python classes around GUDHI (gtda/externals/python)

`CubicalComplex`, `PeriodicCubicalComplex`, `SimplexTree`, `RipsComplex`, `SparseRipsComplex`, `CechComplex`, `WitnessComplex` and `StrongWitnessComplex` as objects with attributes, calls and
printed messages. The compiled functions they call are parameters. `__del__`, which only releases memory, and the unused private methods `__is_defined` and `__is_persistence_defined` are not
modelled.
-/

namespace Gtda.Gudhi

open Py Persistence Diagrams

/-- An attribute of a Python object that may be `None` or deleted by `del`. Used for `pcohptr`, gtda/externals/python/simplex_tree_interface.py:18-21, 309-312. -/
inductive Attr (A : Type)
  | deleted
  | none
  | some (a : A)
  deriving DecidableEq, Repr

/-- The compiled classes `Persistent_cohomology_interface` imported in gtda/externals/python/cubical_complex_interface.py:6-8 and its two siblings, as functions of the complex they point to (`Cx`),
their own state (`Pc`) and numbers (`V`). `new` gets the object passed as second argument: a boolean or something that is not one. `compute` returns the state after the call together with its
outcome. -/
structure Cohomology (Cx Pc V : Type) where
  new : Cx → Option Bool → PyM Pc
  compute : Cx → Pc → Int → V → Pc × PyM Unit
  pairs : Cx → Pc → List (Nat × (V × V))
  betti : Cx → Pc → List Nat
  persistentBetti : Cx → Pc → V → V → List Nat
  intervals : Cx → Pc → Int → List (V × V)

/-- The classes with persistence: `CubicalComplex` (gtda/externals/python/cubical_complex_interface.py:11-157), `PeriodicCubicalComplex` (periodic_cubical_complex_interface.py:10-156) and
`SimplexTree` (simplex_tree_interface.py:5-410). -/
inductive Kind
  | cubical | periodic | tree
  deriving DecidableEq, Repr

/-- The attributes `thisptr` and `pcohptr`, gtda/externals/python/cubical_complex_interface.py:32-33. -/
structure Obj (Cx Pc : Type) where
  complex : Option Cx
  pcoh : Attr Pc
  deriving DecidableEq, Repr

/-- What a call gives back and what it prints. Used in `betti`, gtda/externals/python/simplex_tree_interface.py:320-334. -/
structure Reply (A : Type) where
  value : PyM A
  printed : List String
  deriving Repr

/-- A numpy array: its shape and its entries in order. Used in `intervals`, gtda/externals/python/cubical_complex_interface.py:141-157. -/
structure NpArray (V : Type) where
  shape : List Nat
  data : List V
  deriving DecidableEq, Repr

/-- `np.array(l)` for a list of pairs, gtda/externals/python/cubical_complex_interface.py:157: the shape of an empty list is `(0,)`. -/
def npOfPairs {V : Type} (l : List (V × V)) : NpArray V :=
  match l with
  | [] => ⟨[0], []⟩
  | _ => ⟨[l.length, 2], l.flatMap (fun p => [p.1, p.2])⟩

section objects

variable {Cx Pc V : Type}

/-! ### Objects with persistence -/

/-- `CubicalComplex(dimensions, top_dimensional_cells, perseus_file)` and `PeriodicCubicalComplex(dimensions, top_dimensional_cells, periodic_dimensions, perseus_file)`,
gtda/externals/python/cubical_complex_interface.py:19-48 and periodic_cubical_complex_interface.py:15-48. `fromCells` and `fromFile` are the compiled constructors; `isFile` is `os.path.isfile`.
The argument `periodic` is not looked at for `.cubical`. -/
def cubicalNew (kind : Kind) (fromCells : List Nat → List V → Option (List Bool) → PyM Cx) (fromFile : String → PyM Cx) (isFile : String → Bool) (dimensions : Option (List Nat))
    (cells : Option (List V)) (periodic : Option (List Bool)) (file : String) : Reply (Obj Cx Pc) :=
  let periodicGiven := if kind = .periodic then periodic.isSome else true
  let periodicMissing := if kind = .periodic then periodic.isNone else true
  match dimensions, cells with
  | some d, some c =>
    if periodicGiven && (file == "") then
      ⟨(fromCells d c (if kind = .periodic then periodic else none)).map (fun cx => ⟨some cx, .none⟩), []⟩
    else ⟨.ok ⟨none, .none⟩, ["CubicalComplex can be constructed from dimensions and top_dimensional_cells or from a Perseus-style file name."]⟩
  | none, none =>
    if periodicMissing && (file != "") then
      if isFile file then ⟨(fromFile file).map (fun cx => ⟨some cx, .none⟩), []⟩
      else ⟨.ok ⟨none, .none⟩, ["file " ++ file ++ " not found."]⟩
    else ⟨.ok ⟨none, .none⟩, ["CubicalComplex can be constructed from dimensions and top_dimensional_cells or from a Perseus-style file name."]⟩
  | _, _ => ⟨.ok ⟨none, .none⟩, ["CubicalComplex can be constructed from dimensions and top_dimensional_cells or from a Perseus-style file name."]⟩

/-- `num_simplices()` and `dimension()`, gtda/externals/python/cubical_complex_interface.py:70-80: a method of `thisptr`, which may be `None`. -/
def Obj.measure {A : Type} (f : Cx → A) (o : Obj Cx Pc) : PyM A :=
  match o.complex with
  | some cx => .ok (f cx)
  | none => .error .attributeError

/-- `persistence(homology_coeff_field, min_persistence)`, gtda/externals/python/cubical_complex_interface.py:82-106 and periodic_cubical_complex_interface.py:82-106 (with `flag` true) and
simplex_tree_interface.py:291-318 (`flag` is `persistence_dim_max`; there `thisptr` is always set). The old object is deleted before the new one is built. -/
def Obj.persistence (E : Cohomology Cx Pc V) (o : Obj Cx Pc) (flag : Option Bool) (field : Int) (minPersistence : V) : Obj Cx Pc × PyM (List (Nat × (V × V))) :=
  match o.pcoh with
  | .deleted => (o, .error .attributeError)
  | p =>
    let afterDel : Attr Pc := match p with
      | .some _ => .deleted
      | q => q
    match o.complex with
    | some cx =>
      match E.new cx flag with
      | .error e => (⟨some cx, afterDel⟩, .error e)
      | .ok pc =>
        let r := E.compute cx pc field minPersistence
        (⟨some cx, .some r.1⟩, r.2.map (fun _ => E.pairs cx r.1))
    | none =>
      match afterDel with
      | .deleted => (⟨none, .deleted⟩, .error .attributeError)
      | q => (⟨none, q⟩, .ok [])

/-- A method that asks `pcohptr` and has a default when it is `None`. Used in `betti`, gtda/externals/python/simplex_tree_interface.py:320-334. -/
def Obj.ask {A : Type} (o : Obj Cx Pc) (dflt : A) (message : List String) (f : Cx → Pc → A) : Reply A :=
  match o.pcoh, o.complex with
  | .deleted, _ => ⟨.error .attributeError, []⟩
  | .none, _ => ⟨.ok dflt, message⟩
  | .some pc, some cx => ⟨.ok (f cx pc), []⟩
  | .some _, none => ⟨.error .attributeError, []⟩

/-- `betti_numbers()`, gtda/externals/python/cubical_complex_interface.py:108-119, periodic_cubical_complex_interface.py:108-119 and simplex_tree_interface.py:320-334. -/
def Obj.betti (E : Cohomology Cx Pc V) (kind : Kind) (o : Obj Cx Pc) : Reply (List Nat) :=
  o.ask [] (if kind = .tree then ["`betti_numbers` requires persistence function to be launched first."] else []) E.betti

/-- `persistent_betti_numbers(from_value, to_value)`, gtda/externals/python/cubical_complex_interface.py:121-139, periodic_cubical_complex_interface.py:121-138 and
simplex_tree_interface.py:336-357. -/
def Obj.persistentBetti (E : Cohomology Cx Pc V) (kind : Kind) (o : Obj Cx Pc) (a b : V) : Reply (List Nat) :=
  o.ask [] (if kind = .tree then ["`persistent_betti_numbers` requires persistence function to be launched first."] else []) (fun cx pc => E.persistentBetti cx pc a b)

/-- `persistence_intervals_in_dimension(dimension)`, gtda/externals/python/cubical_complex_interface.py:141-157 (where the default is `np.array([[]])`), periodic_cubical_complex_interface.py:140-156
and simplex_tree_interface.py:359-376 (where it is `np.array([])`). -/
def Obj.intervals (E : Cohomology Cx Pc V) (kind : Kind) (o : Obj Cx Pc) (dim : Int) : Reply (NpArray V) :=
  o.ask (if kind = .cubical then ⟨[1, 0], []⟩ else ⟨[0], []⟩)
    (if kind = .tree then ["`intervals_in_dim` requires persistence function to be launched first."] else ["intervals_in_dim function requires persistence function to be launched first."])
    (fun cx pc => npOfPairs (E.intervals cx pc dim))

/-- A call that can change an object: `persistence`, or a method of `SimplexTree` that changes the complex such as `insert`, `expansion`, `assign_filtration`, `remove_maximal_simplex` or
`prune_above_filtration` (gtda/externals/python/simplex_tree_interface.py:51-289), all of which only pass their arguments to `thisptr`. -/
inductive Call (Cx V : Type)
  | persistence (flag : Option Bool) (field : Int) (minPersistence : V)
  | change (f : Cx → Cx)

/-- One call, gtda/externals/python/simplex_tree_interface.py:51-318. -/
def Obj.step (E : Cohomology Cx Pc V) (o : Obj Cx Pc) : Call Cx V → Obj Cx Pc
  | .persistence flag field minPersistence => (o.persistence E flag field minPersistence).1
  | .change f => { o with complex := o.complex.map f }

/-- A history of calls; exceptions are caught by the caller, gtda/externals/python/simplex_tree_interface.py:51-318. -/
def Obj.run (E : Cohomology Cx Pc V) (o : Obj Cx Pc) (calls : List (Call Cx V)) : Obj Cx Pc := calls.foldl (Obj.step E) o

/-- `write_persistence_diagram(persistence_file)`, gtda/externals/python/simplex_tree_interface.py:394-410: the file written, if any, and what is printed. `write` is the compiled function. -/
def Obj.write {F : Type} (o : Obj Cx Pc) (write : Cx → Pc → F) (file : String) : Reply (Option (String × F)) :=
  match o.pcoh, o.complex with
  | .deleted, _ => ⟨.error .attributeError, []⟩
  | .none, _ => ⟨.ok none, ["`intervals_in_dim` requires persistence function to be launched first."]⟩
  | .some pc, some cx => if file != "" then ⟨.ok (some (file, write cx pc)), []⟩ else ⟨.ok none, ["`persistence_file` must be specified"]⟩
  | .some _, none => ⟨.error .attributeError, []⟩

/-- `get_filtration`, `get_skeleton`, `get_star` and `get_cofaces` rebuild the list of simplices reported, gtda/externals/python/simplex_tree_interface.py:153-210. -/
def rebuild (l : List (List Nat × V)) : List (List Nat × V) :=
  l.foldl (fun ct s => ct ++ [(s.1.foldl (fun v x => v ++ [x]) [], s.2)]) []

end objects

/-! ### Complexes that build simplex trees -/

section builders

variable {R Cx Pc V : Type}

/-- The compiled class `Rips_complex_interface` (imported in gtda/externals/python/rips_complex_interface.py:1-3): the state after one `init_…` call, and the tree of a dimension. -/
structure RipsEngine (R Cx V : Type) where
  points : List (List V) → V → PyM R
  matrix : List (List V) → V → PyM R
  pointsSparse : List (List V) → V → V → PyM R
  matrixSparse : List (List V) → V → V → PyM R
  tree : R → Int → PyM Cx

/-- `RipsComplex(points, distance_matrix, max_edge_length)`, gtda/externals/python/rips_complex_interface.py:13-33. -/
def ripsNew (E : RipsEngine R Cx V) (points matrix : Option (List (List V))) (maxEdge : V) : PyM R :=
  match matrix with
  | some D => E.matrix D maxEdge
  | none => E.points (points.getD []) maxEdge

/-- `SparseRipsComplex(points, distance_matrix, max_edge_length, sparse)`, gtda/externals/python/rips_complex_interface.py:61-88. `sparse=None` cannot be converted to a double by the compiled
function, which raises `TypeError`. -/
def sparseRipsNew (E : RipsEngine R Cx V) (points matrix : Option (List (List V))) (maxEdge : V) (sparse : Option V) : PyM R :=
  match matrix, sparse with
  | _, none => .error .typeError
  | some D, some s => E.matrixSparse D maxEdge s
  | none, some s => E.pointsSparse (points.getD []) maxEdge s

/-- `create_simplex_tree(max_dimension)`, gtda/externals/python/rips_complex_interface.py:35-45, 90-100 and cech_complex_interface.py:24-34: a new `SimplexTree` filled by the compiled function. -/
def createTree (tree : R → Int → PyM Cx) (r : R) (maxDimension : Int) : PyM (Obj Cx Pc) := (tree r maxDimension).map (fun cx => ⟨some cx, .none⟩)

/-- The attribute `thisptr` of `WitnessComplex(nearest_landmark_table)` and `StrongWitnessComplex(nearest_landmark_table)`, gtda/externals/python/witness_complex_interface.py:12-24 and
strong_witness_complex_interface.py:12-24. -/
def witnessNew (new : List (List (Nat × V)) → PyM R) (table : Option (List (List (Nat × V)))) : PyM (Option R) :=
  match table with
  | some t => (new t).map some
  | none => .ok none

/-- `create_simplex_tree(max_alpha_square, limit_dimension)`, gtda/externals/python/witness_complex_interface.py:37-53 and strong_witness_complex_interface.py:37-53. -/
def witnessTree (all : R → V → PyM Cx) (limited : R → V → Int → PyM Cx) (w : Option R) (maxAlpha : V) (limit : Int) : PyM (Obj Cx Pc) :=
  match w with
  | none => .error .attributeError
  | some r => (if limit ≠ -1 then limited r maxAlpha limit else all r maxAlpha).map (fun cx => ⟨some cx, .none⟩)

end builders

/-! ### The calls made by the persistence transformers -/

section transformers

variable {R Cx Pc V : Type}

/-- `CubicalPersistence._gudhi_diagram` through the wrapper classes, gtda/homology/cubical.py:121-130. `_filtration` is `PeriodicCubicalComplex` when `periodic` is given and `CubicalComplex`
otherwise (156-167). -/
def cubicalCall (E : Cohomology Cx Pc (Raw V)) (fromCells : List Nat → List V → Option (List Bool) → PyM Cx) (fromFile : String → PyM Cx) (isFile : String → Bool) (coeff : Int) (zero : Raw V)
    (periodic : Option (List Bool)) (X : NArr V) : PyM (List (Nat × (Raw V × Raw V))) := do
  let o ← (cubicalNew (Pc := Pc) (if periodic.isSome then .periodic else .cubical) fromCells fromFile isFile (some X.shape) (some (flattenF X)) periodic "").value
  (o.persistence E (some true) coeff zero).2

/-- `SparseRipsPersistence._gudhi_diagram` after the computation of distances, gtda/homology/simplicial.py:857-868. -/
def sparseRipsCall (E : Cohomology Cx Pc V) (F : RipsEngine R Cx V) (maxEdge epsilon zero : V) (coeff : Int) (maxDim : Nat) (D : List (List V)) : PyM (List (Nat × (V × V))) := do
  let r ← sparseRipsNew F none (some D) maxEdge (some epsilon)
  let t : Obj Cx Pc ← createTree F.tree r (maxDim + 1)
  (t.persistence E (some false) coeff zero).2

/-- `EuclideanCechPersistence._gudhi_diagram`, gtda/homology/simplicial.py:1348-1356. `cech` is the compiled constructor. -/
def cechCall (E : Cohomology Cx Pc V) (cech : List (List V) → V → PyM R) (tree : R → Int → PyM Cx) (maxRadius zero : V) (coeff : Int) (maxDim : Nat) (X : List (List V)) :
    PyM (List (Nat × (V × V))) := do
  let r ← cech X maxRadius
  let t : Obj Cx Pc ← createTree tree r (maxDim + 1)
  (t.persistence E (some false) coeff zero).2

end transformers

end Gtda.Gudhi
