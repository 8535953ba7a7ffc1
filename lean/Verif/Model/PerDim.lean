import Verif.Model.Diagrams
import Verif.Model.Parallel

set_option autoImplicit false

/-!
# Model of "one task per homology dimension and slice of samples"

The transformers of `gtda/diagrams/representations.py`, `_parallel_amplitude` and some transformers of `gtda/diagrams/features.py` submit one task
per pair of a homology dimension and a slice of the collection, concatenate the results, and rearrange the array.
-/

namespace Gtda.Diagrams
open Gtda.Py Gtda.Parallel

/-- Transpose of a list of rows of length (at least) `n`. Used in `perDim`, gtda/diagrams/_metrics.py:430-442. -/
def transposeN {α : Type} (n : Nat) (M : List (List α)) : List (List α) :=
  (List.range n).map fun i => M.filterMap fun r => r[i]?

/-- `np.concatenate(arrays)` along the first axis; `ValueError` for an empty list. Used in `perDim`, gtda/diagrams/_metrics.py:430-442. -/
def concatAxis0 {α : Type} (l : List (List α)) : PyM (List α) :=
  match l with
  | [] => .error .valueError
  | _ => .ok l.flatten

section
variable {K Q : Type} [DecidableEq Q] {β : Type}

/-- One task: `f(_subdiagrams(X[s], [dim], …), …)`. Used in `perDim`, gtda/diagrams/_metrics.py:430-442. -/
def perDimTask (F : Q → List (List (Pt K Q)) → PyM (List β)) (X : List (List (Pt K Q))) (t : Q × (Nat × Nat)) : PyM (List β) := do
  let sub ← subdiagrams (pySlice (some (t.2.1 : Int)) (some (t.2.2 : Int)) 1 X) [t.1]
  F t.1 sub

/-- The tasks in submission order: `for dim in homology_dimensions for s in gen_even_slices(len(X), n_jobs)`. Used in `perDim`, gtda/diagrams/_metrics.py:430-442. -/
def perDimTasks (dims : List Q) (nJobs n : Nat) : List (Q × (Nat × Nat)) :=
  dims.flatMap fun q => (genEvenSlices n nJobs).map fun s => (q, s)

/-- The pattern of gtda/diagrams/_metrics.py:430-442 and gtda/diagrams/representations.py:158-169, 392-404, 620-630, 932-942, 1241-1250:
tasks, concatenation, `reshape(len(homology_dimensions), len(X), …)`, exchange of the first two axes. `β` is what a single diagram
and homology dimension give (a number, a curve, an image). -/
def perDim (F : Q → List (List (Pt K Q)) → PyM (List β)) (dims : List Q) (nJobs : Nat) (X : List (List (Pt K Q))) :
    PyM (List (List β)) := do
  let parts ← (perDimTasks dims nJobs X.length).mapM (perDimTask F X)
  let flat ← concatAxis0 parts
  let rows ← reshape2 dims.length X.length flat
  .ok (transposeN X.length rows)

end

end Gtda.Diagrams
