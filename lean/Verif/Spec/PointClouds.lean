import Verif.Model.PointClouds

set_option autoImplicit false

/-!
# Specification for rescaled distances and weak alpha edges
-/

namespace Gtda.Spec

/-- `v` is the `k`-th smallest entry of `r`, counting from zero (so that for a row of a distance matrix the point itself has rank zero). -/
def IsKth (k : Nat) (r : List ℝ) (v : ℝ) : Prop :=
  v ∈ r ∧ r.countP (fun x => decide (x < v)) ≤ k ∧ k < r.countP (fun x => decide (x ≤ v))

/-- An `n × n` matrix. -/
def IsSquare (n : Nat) (D : List (List ℝ)) : Prop := D.length = n ∧ ∀ r ∈ D, r.length = n

/-- The entry of a matrix in row `i` and column `j`. -/
def cell {α : Type} (D : List (List α)) (i j : Nat) : Option α := do
  let r ← D[i]?
  r[j]?

/-- `indptr` of the adjacency lists `nb`, in which entry `u` is the list of neighbours of vertex `u`: the partial sums of the lengths. -/
def indptrOf : List (List Nat) → List Nat
  | [] => [0]
  | b :: t => 0 :: (indptrOf t).map (b.length + ·)

/-- The edges of an adjacency structure with their own lengths, each from its smaller to its larger vertex. -/
def upperEdges {K : Type} (dist : Nat → Nat → K) (nb : List (List Nat)) : List (Nat × Nat × K) :=
  (List.range nb.length).flatMap fun u => ((nb.getD u []).filter fun v => decide (u < v)).map fun v => (u, v, dist u v)

end Gtda.Spec
