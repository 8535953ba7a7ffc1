import Verif.Py.Basic

set_option autoImplicit false

/-!
# Model of the "split in even slices, map in parallel, concatenate" pattern

Used with `joblib.Parallel` and `sklearn.utils.gen_even_slices` e.g. in gtda/images/filtrations.py:141-145,
gtda/images/preprocessing.py:99-103, gtda/diagrams/features.py:180-184, gtda/time_series/features.py:155-158,
gtda/diagrams/representations.py:133-139, gtda/diagrams/_metrics.py:520-527.
-/

namespace Gtda.Parallel
open Gtda.Py

/-- The loop of `sklearn.utils.gen_even_slices(n, n_packs)`, from pack number `k` on (fuel = number of packs left). Used in `derivativeTransform`, gtda/curves/preprocessing.py:89-119. -/
def genEvenSlicesFrom (n packs : Nat) : Nat → Nat → Nat → List (Nat × Nat)
  | 0, _, _ => []
  | fuel + 1, k, start =>
    let thisN := n / packs + (if k < n % packs then 1 else 0)
    if thisN > 0 then (start, start + thisN) :: genEvenSlicesFrom n packs fuel (k + 1) (start + thisN)
    else genEvenSlicesFrom n packs fuel (k + 1) start

/-- `sklearn.utils.gen_even_slices(n, n_packs)` for `n_packs ≥ 1`, as a list of `(start, end)` pairs. Used in `derivativeTransform`, gtda/curves/preprocessing.py:89-119. -/
def genEvenSlices (n packs : Nat) : List (Nat × Nat) := genEvenSlicesFrom n packs packs 0 0

/-- `np.concatenate(Parallel(n_jobs=…)(delayed(F)(X[s]) for s in gen_even_slices(len(X), n_jobs)))`: the batch function `F` is applied to
each slice and results are concatenated in the order of the slices (`joblib.Parallel` returns results in submission order). Used in `derivativeTransform`, gtda/curves/preprocessing.py:89-119. -/
def chunked {α β : Type _} (F : List α → List β) (nJobs : Nat) (X : List α) : List β :=
  ((genEvenSlices X.length nJobs).map fun s => F (pySlice (some (s.1 : Int)) (some (s.2 : Int)) 1 X)).flatten

/-- Same with a batch function that may raise: the first exception (in submission order) is re-raised. It has the shape of gtda/diagrams/_metrics.py:430-442 and similar calls. -/
def chunkedM {α β : Type _} (F : List α → PyM (List β)) (nJobs : Nat) (X : List α) : PyM (List β) := do
  let r ← (genEvenSlices X.length nJobs).mapM fun s => F (pySlice (some (s.1 : Int)) (some (s.2 : Int)) 1 X)
  pure r.flatten

/-- Execution of `joblib.Parallel`'s tasks in an arbitrary order: `order` lists task numbers as they complete, each completion
stores the task's result in its own slot. Used in `parallelClusteringFit`, gtda/mapper/cluster.py:107-181. -/
def runSchedule {β : Type _} (tasks : List (Unit → β)) (order : List Nat) : List (Option β) :=
  order.foldl (fun slots k => slots.set k ((tasks[k]?).map fun t => t ())) (List.replicate tasks.length none)

end Gtda.Parallel
