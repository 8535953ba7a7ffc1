import Verif.Spec.InputChecks
import Verif.Model.Neighbors

/-!
# What a graph of nearest neighbours is

Taken from the model: the types of arrays, parameters and graphs.
-/

set_option autoImplicit false

namespace Gtda.Spec.Neighbors

open Gtda.Checks Gtda.Neighbors

variable {K : Type} [Field K] [LinearOrder K]

/-- A correct search: `m` different indices, in increasing order of their entries, no entry left out being smaller. -/
def Correct (query : Nat → List K → List Nat) : Prop :=
  ∀ m (r : List K), m ≤ r.length → (query m r).length = m ∧ (query m r).Nodup ∧ (∀ j ∈ query m r, j < r.length) ∧
    (query m r).Pairwise (fun i j => r.getD i 0 ≤ r.getD j 0) ∧
    ∀ i ∈ query m r, ∀ j < r.length, j ∉ query m r → r.getD i 0 ≤ r.getD j 0

/-- The dense array with the given rows, all of the given length. -/
def ofRows (rows : List (List K)) (cols : Nat) : Arr K := ⟨[rows.length, cols], rows.flatten.map .fin, false⟩

/-- A graph in which each of the `n` vertices has edges to exactly `k` other vertices, none of the others being nearer;
the values are as given. -/
structure IsKnn (n k : Nat) (d : Nat → Nat → K) (w : Nat → Nat → K) (g : Graph K) : Prop where
  vertices : g.n = n
  rows : g.rows.length = n
  degree : ∀ r ∈ g.rows, r.length = k
  distinct : ∀ r ∈ g.rows, (r.map Prod.fst).Nodup
  range : ∀ r ∈ g.rows, ∀ e ∈ r, e.1 < n
  loops : ∀ (i : Nat) (r : List (Nat × K)), g.rows[i]? = some r → ∀ e ∈ r, e.1 ≠ i
  values : ∀ (i : Nat) (r : List (Nat × K)), g.rows[i]? = some r → ∀ e ∈ r, e.2 = w i e.1
  nearest : ∀ (i : Nat) (r : List (Nat × K)), g.rows[i]? = some r → ∀ e ∈ r, ∀ j < n, j ≠ i → j ∉ r.map Prod.fst → d i e.1 ≤ d i j

/-- An array with as many entries as its shape says. -/
def WellShaped (x : Arr K) : Prop := x.sparse = false → x.data.length = x.shape.prod

/-- Row `i` of the list of points. -/
def point (P : List (List K)) (i : Nat) : List K := P.getD i []

/-- Entry `i`, `j` of a matrix. -/
def entry (M : List (List K)) (i j : Nat) : K := (M.getD i []).getD j 0

end Gtda.Spec.Neighbors
