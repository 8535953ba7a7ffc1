import Verif.Model.Graphs

set_option autoImplicit false

/-!
# Specification for transition graphs and geodesic distances
-/

namespace Gtda.Spec
open Gtda.Graphs

/-- How often state `b` immediately follows state `a` in the sequence `Y`. -/
def followCount {S : Type} [DecidableEq S] (Y : List S) (a b : S) : Nat :=
  (List.range (Y.length - 1)).countP fun (t : Nat) => decide (Y[t]? = some a) && decide (Y[t + 1]? = some b)

section
variable {K : Type} [Field K] [LinearOrder K]

/-- Number of vertices of an adjacency matrix. -/
def vertices : GraphInput K → Nat
  | .bool rows => rows.length
  | .dense rows => rows.length
  | .masked rows => rows.length
  | .sparse nr nc _ => max nr nc

/-- The weight of the edge from `i` to `j` according to the documentation of `GraphGeodesicDistance` (`none`: no edge). In Boolean matrices `False` is no edge and `True` an edge
of length one; in numeric matrices infinity is no edge and zero an edge of length zero; masked entries are no edges; in sparse matrices exactly the stored entries are edges. -/
def DocEdge (X : GraphInput K) (i j : Nat) (w : K) : Prop :=
  match X with
  | .bool rows => (∃ r, rows[i]? = some r ∧ r[j]? = some true) ∧ w = 1
  | .dense rows => ∃ r, rows[i]? = some r ∧ r[j]? = some (some w)
  | .masked rows => ∃ r, rows[i]? = some r ∧ r[j]? = some (some w)
  | .sparse _ _ stored => ((i, j), w) ∈ stored

/-- Well-formed adjacency matrices: square if dense; for sparse matrices positions are inside the shape and stored once. -/
def WellFormed : GraphInput K → Prop
  | .bool rows => ∀ r ∈ rows, r.length = rows.length
  | .dense rows => ∀ r ∈ rows, r.length = rows.length
  | .masked rows => ∀ r ∈ rows, r.length = rows.length
  | .sparse nr nc stored => (∀ e ∈ stored, e.1.1 < nr ∧ e.1.2 < nc) ∧ (stored.map (·.1)).Nodup

/-- The steps allowed on a graph with edges `E`: along an edge, against it if the graph is undirected, with weight one if it is unweighted. -/
def Step (E : Nat → Nat → K → Prop) (directed unweighted : Bool) (i j : Nat) (w : K) : Prop :=
  ∃ v, (E i j v ∨ (directed = false ∧ E j i v)) ∧ w = if unweighted then 1 else v

/-- `l` is the length of a walk from `i` to `j`. -/
inductive Walk (E : Nat → Nat → K → Prop) : Nat → Nat → K → Prop
  | nil (i : Nat) : Walk E i i 0
  | cons (i k j : Nat) (w l : K) : E i k w → Walk E k j l → Walk E i j (w + l)

/-- `d` is the matrix of lengths of shortest walks between the vertices `0, …, n-1`: `d i j` is infinite if there is no walk from `i` to `j`, otherwise the length of a walk
and no walk is shorter. -/
def IsDistance (n : Nat) (E : Nat → Nat → K → Prop) (d : Nat → Nat → WithTop K) : Prop :=
  ∀ i < n, ∀ j < n, (∀ l, Walk E i j l → d i j ≤ (l : WithTop K)) ∧ (d i j = ⊤ ∨ ∃ l, Walk E i j l ∧ d i j = (l : WithTop K))

/-- What SciPy documents about `shortest_path`: the result is the matrix of shortest walks of the graph whose edges are the given entries (whenever there is such a matrix, that is,
without negative cycles), except that Dijkstra's algorithm requires weights that are not negative, and that Floyd-Warshall (which `'auto'` may select) takes zeros in dense input for
missing edges. -/
def Correct (engine : Engine K) : Prop :=
  ∀ (m : Method) (directed unweighted : Bool) (G : CsGraph K) (d : Nat → Nat → WithTop K),
    (m = .D → ∀ i j w, G.entry i j = some w → 0 ≤ w) →
    (m = .FW ∨ m = .auto → G.isDense = true → ∀ i < G.n, ∀ j < G.n, i ≠ j → G.entry i j ≠ some 0) →
    IsDistance G.n (Step (fun i j w => G.entry i j = some w) directed unweighted) d →
    ∀ i < G.n, ∀ j < G.n, engine m directed unweighted G i j = d i j

end

end Gtda.Spec
