import Verif.Py.Basic
import Mathlib.Data.List.Dedup
import Mathlib.Data.List.Sort

set_option autoImplicit false

/-!
# Model of `gtda/mapper/nerve.py`

`igraph.Graph` is modelled by a list of vertices (with the three vertex attributes) and a list of edges (end points, `weight`, `edge_elements`).
-/

namespace Gtda.Mapper
open Gtda.Py

/-- Vertex attributes set in gtda/mapper/nerve.py:140-142. -/
structure Node (P C : Type) where
  set : P
  cluster : C
  elements : List Nat
deriving DecidableEq, Repr

/-- An edge with attributes `weight` and (optional) `edge_elements`, gtda/mapper/nerve.py:150-154. -/
structure Edge where
  src : Nat
  dst : Nat
  weight : Nat
  elements : Option (List Nat)
deriving DecidableEq, Repr

/-- The part of an `igraph.Graph` used by `Nerve`. Used in `contractGraph`, gtda/mapper/nerve.py:165-168. -/
structure Graph (P C : Type) where
  nodes : List (Node P C)
  edges : List Edge
deriving DecidableEq, Repr

/-- `d[k].append(i)` on a `defaultdict(list)` (insertion-ordered), gtda/mapper/nerve.py:129. -/
def dictAppend {ν : Type} [DecidableEq ν] (d : List (ν × List Nat)) (k : ν) (i : Nat) : List (ν × List Nat) :=
  if k ∈ d.map Prod.fst then d.map fun p => if p.1 = k then (p.1, p.2 ++ [i]) else p
  else d ++ [(k, [i])]

/-- `labels_to_indices`, gtda/mapper/nerve.py:126-131. -/
def labelsToIndices {ν : Type} [DecidableEq ν] (X : List (List ν)) : List (ν × List Nat) :=
  X.zipIdx.foldl (fun d p => p.1.foldl (fun d k => dictAppend d k p.2) d) []

/-- `itertools.combinations(l, 2)`. Used in `generateEdgeData`, gtda/mapper/nerve.py:172-244. -/
def combinations2 {α : Type _} : List α → List (α × α)
  | [] => []
  | a :: t => t.map (fun b => (a, b)) ++ combinations2 t

/-- `np.intersect1d(a, b)`: the sorted unique common values. Used in `edgeStep`, gtda/mapper/nerve.py:232-242. -/
def intersect1d (a b : List Nat) : List Nat := ((a.filter (· ∈ b)).dedup).insertionSort (· ≤ ·)

/-- What `_generate_edge_data` accumulates: node index pairs, weights and intersections (three parallel lists in the code, one list of
triples here) and the mapping. Used in `metadataAppend`, gtda/mapper/nerve.py:182-190. -/
structure EdgeData where
  pairs : List ((Nat × Nat) × Nat × List Nat)
  mapping : List Nat

/-- `_metadata_append`, gtda/mapper/nerve.py:182-190. -/
def metadataAppend (minInt : Int) (st : EdgeData) (i j : Nat) (inter : List Nat) : EdgeData :=
  if minInt ≤ (inter.length : Int) then { st with pairs := st.pairs ++ [((i, j), inter.length, inter)] } else st

/-- `_subset_check_metadata_append`, gtda/mapper/nerve.py:192-207. -/
def subsetCheck (minInt : Int) (st : EdgeData) (i j : Nat) (inter e1 e2 : List Nat) : EdgeData :=
  if inter.length = e2.length then { st with mapping := st.mapping.set j i }
  else if inter.length = e1.length then { st with mapping := st.mapping.set i j }
  else metadataAppend minInt st i j inter

/-- Loop body of `_generate_edge_data`, gtda/mapper/nerve.py:232-242 (the `filterfalse` on equal pullback sets included). -/
def edgeStep {P C : Type} [DecidableEq P] (minInt : Int) (contract : Bool) (st : EdgeData)
    (t : (Node P C × Nat) × (Node P C × Nat)) : EdgeData :=
  if t.1.1.set = t.2.1.set then st
  else
    let inter := intersect1d t.1.1.elements t.2.1.elements
    if inter.length ≠ 0 then
      if contract then subsetCheck minInt st t.1.2 t.2.2 inter t.1.1.elements t.2.1.elements
      else metadataAppend minInt st t.1.2 t.2.2 inter
    else st

/-- `Nerve._generate_edge_data`, gtda/mapper/nerve.py:172-244. (`mapping` is `None` without contraction; it is not read then.) -/
def generateEdgeData {P C : Type} [DecidableEq P] (minInt : Int) (contract : Bool) (nodes : List (Node P C)) : EdgeData :=
  (combinations2 nodes.zipIdx).foldl (edgeStep minInt contract) ⟨[], List.range nodes.length⟩

/-- The `while` loop of `_limit_mapping`, gtda/mapper/nerve.py:21-23, with a bound on the number of iterations (`none`: bound exceeded or index
out of range; theorem `C47_contraction` shows that neither happens). -/
def limitLoop (m : List Nat) : Nat → Nat → Nat → Option Nat
  | fuel, temp, next =>
    if temp ≠ next then
      match fuel with
      | 0 => none
      | fuel + 1 =>
        match m[temp]? with
        | none => none
        | some temp' =>
          match m[temp']? with
          | none => none
          | some a =>
            match m[a]? with
            | none => none
            | some next' => limitLoop m fuel temp' next'
    else some temp

/-- `_limit_mapping`, gtda/mapper/nerve.py:12-26. -/
def limitMapping (fuel : Nat) (m : List Nat) : Option (List Nat) :=
  m.zipIdx.mapM fun p => limitLoop m fuel p.2 p.1

/-- `igraph.Graph.contract_vertices(mapping, combine_attrs="first")` followed by `delete_vertices` of all vertices that are not fixed by the mapping,
gtda/mapper/nerve.py:165-168. Contracting sends vertex `i` to vertex `mapping[i]`, whose attributes are those of the first (smallest) vertex sent
to it; edges are kept with their attributes, loops and multiple edges included. Deletion removes vertices with their incident edges and renumbers. -/
def contractGraph {P C : Type} (lim : List Nat) (g : Graph P C) : Graph P C :=
  let kept := (List.range lim.length).filter fun i => lim[i]? = some i
  { nodes := kept.filterMap fun j => g.nodes[lim.idxOf j]?
    edges := g.edges.filterMap fun e =>
      match lim[e.src]?, lim[e.dst]? with
      | some a, some b => if a ∈ kept ∧ b ∈ kept then some { e with src := kept.idxOf a, dst := kept.idxOf b } else none
      | _, _ => none }

/-- The nodes of the Mapper graph, gtda/mapper/nerve.py:126-142. -/
def nerveNodes {P C : Type} [DecidableEq P] [DecidableEq C] (X : List (List (P × C))) : List (Node P C) :=
  (labelsToIndices X).map fun p => ⟨p.1.1, p.1.2, p.2⟩

/-- `Nerve.fit_transform`, gtda/mapper/nerve.py:91-170. `X` lists for every sample the pairs (pullback set label, partial cluster label). With no node at
all `next(node_attributes)` (line 140) raises `StopIteration`. The bound `fuel` is for the loop of `_limit_mapping`; `none` means that the bound was exceeded. -/
def nerve {P C : Type} [DecidableEq P] [DecidableEq C] (minInt : Int) (storeElements contract : Bool) (fuel : Nat) (X : List (List (P × C))) :
    PyM (Option (Graph P C)) :=
  let nodes := nerveNodes X
  if nodes = [] then .error .stopIteration
  else
    let ed := generateEdgeData minInt contract nodes
    let g : Graph P C := ⟨nodes, ed.pairs.map fun p => ⟨p.1.1, p.1.2, p.2.1, if storeElements then some p.2.2 else none⟩⟩
    if contract then
      match limitMapping fuel ed.mapping with
      | none => .ok none
      | some lim => .ok (some (contractGraph lim g))
    else .ok (some g)

end Gtda.Mapper
