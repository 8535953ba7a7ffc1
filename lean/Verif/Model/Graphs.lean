import Mathlib.Data.List.Sort
import Mathlib.Data.List.Dedup
import Mathlib.Order.WithBot
import Mathlib.Algebra.Order.Field.Basic
import Verif.Py.Basic

set_option autoImplicit false

/-!
# Model of `gtda/graphs/transition.py` and `gtda/graphs/geodesic_distance.py`

SciPy's shortest path engine is a parameter. Weights are exact.
-/

namespace Gtda.Graphs
open Gtda.Py

/-! ### `TransitionGraph` -/

section
variable {K S : Type} [LinearOrder S]

/-- `np.unique(Xm, axis=0)`: the distinct states in increasing (lexicographic) order. Used in `adjacency`, gtda/graphs/transition.py:117-129. -/
def uniqueStates (Y : List S) : List S := (Y.insertionSort (· ≤ ·)).dedup

/-- `TransitionGraph._make_adjacency_matrix`, gtda/graphs/transition.py:117-129, as a dense matrix: duplicate entries of the sparse matrix are added up. A state is the value of
the preprocessing function on a row. -/
def adjacency (func : List K → S) (X : List (List K)) : List (List Nat) :=
  let Y := X.map func
  let states := uniqueStates Y
  let idx := Y.map fun s => states.idxOf s
  let pairs := (idx.dropLast.zip idx.tail).filter fun p => decide (p.1 ≠ p.2)
  (List.range states.length).map fun i => (List.range states.length).map fun j => pairs.countP fun p => decide (p = (i, j))

/-- A preprocessing function with keyword arguments of type `P`; `none` for the call without keyword arguments. Used in `transitionFitTransform`, gtda/graphs/transition.py:131-197. -/
abbrev KwFunc (K S P : Type) := Option P → List K → S

/-- `TransitionGraph(func, func_params).fit(X).transform(X)`, gtda/graphs/transition.py:131-197, for `func` not `None`: `effective_func_params_` is stored but
`_make_adjacency_matrix` calls `self._func` with the row only. -/
def transitionFitTransform {P : Type} (func : KwFunc K S P) (_funcParams : Option P) (X : List (List (List K))) : List (List (List Nat)) :=
  X.map (adjacency (func none))

end

/-! ### `GraphGeodesicDistance` -/

/-- Shortest path methods of SciPy. Used in `chooseMethod`, gtda/graphs/geodesic_distance.py:96-109. -/
inductive Method
  | auto | FW | D | BF | J
  deriving DecidableEq, Repr

/-- An adjacency matrix as accepted by `GraphGeodesicDistance`: dense Boolean, dense numeric (`none`: infinity or NaN), masked (`none`: masked; unmasked entries are finite), or
sparse with its shape and its stored entries. Used in `prepare`, gtda/graphs/geodesic_distance.py:95-121. -/
inductive GraphInput (K : Type)
  | bool (rows : List (List Bool))
  | dense (rows : List (List (Option K)))
  | masked (rows : List (List (Option K)))
  | sparse (nRows nCols : Nat) (stored : List ((Nat × Nat) × K))

/-- What is passed to SciPy: dense or sparse, the number of vertices and the entries that SciPy does not regard as masked or not stored (for Boolean matrices, `False` is null). Used in `prepare`, gtda/graphs/geodesic_distance.py:95-121. -/
structure CsGraph (K : Type) where
  isDense : Bool
  n : Nat
  entry : Nat → Nat → Option K

section
variable {K : Type} [Field K] [LinearOrder K]

/-- Entry `(i, j)` of a matrix given by rows, `none` outside. Used in `zeroOffDiag`, gtda/graphs/geodesic_distance.py:98-99. -/
def entryAt {α : Type} (rows : List (List (Option α))) (i j : Nat) : Option α := ((rows.getD i []).getD j none)

/-- `np.any(~np.logical_or(X, diag))`, gtda/graphs/geodesic_distance.py:98-99: some off-diagonal entry is zero (or `False`). -/
def zeroOffDiag (rows : List (List (Option K))) : Bool :=
  (List.range rows.length).any fun i => (List.range rows.length).any fun j => decide (i ≠ j) && decide (entryAt rows i j = some 0)

/-- `np.any(X < 0)`. Used in `chooseMethod`, gtda/graphs/geodesic_distance.py:96-109. -/
def anyNegative (rows : List (List (Option K))) : Bool :=
  rows.any fun r => r.any fun x => match x with | some w => decide (w < 0) | none => false

/-- `True` and `False` as numbers. Used in `prepare`, gtda/graphs/geodesic_distance.py:95-121. -/
def boolRows (rows : List (List Bool)) : List (List (Option K)) := rows.map fun r => r.map fun b => some (if b then 1 else 0)

/-- The method chosen for a dense matrix, gtda/graphs/geodesic_distance.py:96-109. -/
def chooseMethod (m : Method) (rows : List (List (Option K))) : Method :=
  if zeroOffDiag rows then
    if m = .auto ∨ m = .FW then if anyNegative rows then .J else .D else m
  else m

/-- `GraphGeodesicDistance._geodesic_distance`, gtda/graphs/geodesic_distance.py:95-121: the method and the graph handed over to SciPy. Dense matrices are square
(otherwise NumPy or SciPy raises). Non-finite entries of numeric matrices are masked; rectangular sparse matrices are enlarged to a square. -/
def prepare (m : Method) (X : GraphInput K) : PyM (Method × CsGraph K) :=
  match X with
  | .bool rows =>
    if rows.all fun r => decide (r.length = rows.length) then
      .ok (chooseMethod m (boolRows rows : List (List (Option K))), ⟨true, rows.length, fun i j => if (rows.getD i []).getD j false then some 1 else none⟩)
    else .error .valueError
  | .dense rows =>
    if rows.all fun r => decide (r.length = rows.length) then .ok (chooseMethod m rows, ⟨true, rows.length, entryAt rows⟩) else .error .valueError
  | .masked rows =>
    if rows.all fun r => decide (r.length = rows.length) then .ok (chooseMethod m rows, ⟨true, rows.length, entryAt rows⟩) else .error .valueError
  | .sparse nr nc stored => .ok (m, ⟨false, max nr nc, fun i j => (stored.find? fun e => decide (e.1 = (i, j))).map (·.2)⟩)

/-- A shortest path engine: method, `directed`, `unweighted`, graph; the result is the matrix of distances, `⊤` for infinity. Stands for `scipy.sparse.csgraph.shortest_path`, called in gtda/graphs/geodesic_distance.py:119-121. -/
abbrev Engine (K : Type) := Method → Bool → Bool → CsGraph K → Nat → Nat → WithTop K

/-- The parameters of `GraphGeodesicDistance` with the defaults of its constructor, gtda/graphs/geodesic_distance.py:88-93. -/
structure GeodesicParams where
  directed : Bool := false
  unweighted : Bool := false
  method : Method := .auto

/-- One entry of `GraphGeodesicDistance.transform`: the number of vertices and the distances. See gtda/graphs/geodesic_distance.py:95-121, 150-183. -/
def geodesic (engine : Engine K) (p : GeodesicParams) (X : GraphInput K) : PyM (Nat × (Nat → Nat → WithTop K)) := do
  let (m, G) ← prepare p.method X
  pure (G.n, engine m p.directed p.unweighted G)

end

end Gtda.Graphs
