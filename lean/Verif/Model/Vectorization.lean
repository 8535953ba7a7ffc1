import Verif.Model.PerDim

set_option autoImplicit false

/-!
# Model of the vector representations of persistence diagrams

`gtda/diagrams/_metrics.py` (`betti_curves`, `landscapes`), `gtda/diagrams/_utils.py` (`_bin`), and the transformers of
`gtda/diagrams/representations.py` using them. Numbers are exact. Subdiagrams keep their third column (the code drops it with `remove_dim=True`; none of
the functions below reads it).
-/

namespace Gtda.Diagrams
open Gtda.Py Gtda.Parallel

variable {K Q : Type} [Field K] [LinearOrder K]

/-- Number of points alive at `s`: `np.sum(alive, axis=2)` for one diagram and one sampled value, gtda/diagrams/_metrics.py:64-67. -/
def aliveCount (s : K) (D : List (Pt K Q)) : Nat := (D.filter fun p => decide (s ≥ p.b) && decide (s < p.d)).length

/-- `betti_curves`, gtda/diagrams/_metrics.py:63-68: an array indexed by samplings then diagrams, transposed. -/
def bettiCurves (Y : List (List (Pt K Q))) (sampling : List K) : List (List Nat) :=
  transposeN Y.length (sampling.map fun s => Y.map fun D => aliveCount s D)

/-- One entry of `fibers`, gtda/diagrams/_metrics.py:73-75. -/
def fiber (s : K) (p : Pt K Q) : K := max (-|s - (p.d + p.b) / 2| + (p.d - p.b) / 2) 0

/-- `np.transpose(a, (1, 2, 0))` for an array with second and third axes of length `n` and `m`. Used in `landscapes`, gtda/diagrams/_metrics.py:71-82. -/
def transpose120 {α : Type} (n m : Nat) (a : List (List (List α))) : List (List (List α)) :=
  (List.range n).map fun i => (List.range m).map fun k => a.filterMap fun r => r[i]? >>= fun c => c[k]?

/-- Sorted in increasing order. Used in `landscapes`, gtda/diagrams/_metrics.py:71-82. -/
def sortUp (l : List K) : List K := l.insertionSort (· ≤ ·)

/-- `landscapes`, gtda/diagrams/_metrics.py:71-82. `fibers.partition(top_pos, axis=2)` is modelled by sorting: it puts the entries of a sorted array at the last
`min(n_layers, n_points)` positions, and only these are read afterwards. `fibers[:, :, -n_layers:]` keeps the last `n_layers` entries, or all of them if there are fewer. -/
def landscapes (Y : List (List (Pt K Q))) (sampling : List K) (nLayers : Nat) : List (List (List K)) :=
  let nPoints := (Y.headD []).length
  let fibers := sampling.map fun s => Y.map fun D => sortUp (D.map (fiber s))
  let fibers := fibers.map fun F => F.map fun r => (r.drop (nPoints - nLayers)).reverse
  let out := transpose120 Y.length (min nLayers nPoints) fibers
  out.map fun layers => layers ++ List.replicate (nLayers - nPoints) (List.replicate sampling.length 0)

/-- `BettiCurve.transform` after validation, gtda/diagrams/representations.py:161-170. -/
def bettiTransform [DecidableEq Q] (dims : List Q) (sampling : Q → List K) (nJobs : Nat) (X : List (List (Pt K Q))) : PyM (List (List (List Nat))) :=
  perDim (fun q Y => .ok (bettiCurves Y (sampling q))) dims nJobs X

/-- `PersistenceLandscape.transform` after validation, gtda/diagrams/representations.py:397-409: the layers of all homology dimensions are listed one after
the other. -/
def landscapeTransform [DecidableEq Q] (dims : List Q) (sampling : Q → List K) (nLayers nJobs : Nat) (X : List (List (Pt K Q))) :
    PyM (List (List (List K))) := do
  let r ← perDim (fun q Y => .ok (landscapes Y (sampling q) nLayers)) dims nJobs X
  .ok (r.map List.flatten)

/-! ### `_bin` -/

/-- `np.linspace(lo, hi, num=n, retstep=True)`: sampled values and step (`none`: NaN, which numpy returns when `num=1`). Used in `binSampling`, gtda/diagrams/_utils.py:125-167. -/
def linspace (lo hi : K) (n : Nat) : List K × Option K :=
  if n ≤ 1 then (List.replicate n lo, none)
  else
    let step := (hi - lo) / ((n - 1 : Nat) : K)
    ((List.range n).map fun (i : Nat) => lo + (i : K) * step, some step)

/-- `np.max` of an array; `ValueError` if it is empty. Used in `binRange`, gtda/diagrams/_utils.py:136-145. -/
def npMax : List K → PyM K
  | [] => .error .valueError
  | x :: l => .ok (l.foldl max x)

/-- `np.min` of an array; `ValueError` if it is empty. Used in `binRange`, gtda/diagrams/_utils.py:136-145. -/
def npMin : List K → PyM K
  | [] => .error .valueError
  | x :: l => .ok (l.foldl min x)

/-- The two columns read by `_bin`: births and deaths, or births and lifetimes for persistence images, gtda/diagrams/_utils.py:132-135. -/
def columns (isPI : Bool) (sub : List (List (Pt K Q))) : List K × List K :=
  (sub.flatten.map fun p => p.b, sub.flatten.map fun p => if isPI then p.d - p.b else p.d)

/-- `min_vals[dim]` and `max_vals[dim]` after gtda/diagrams/_utils.py:136-145, as pairs of pairs (one entry per axis). For the metrics with a common sampling of both
axes the minimum (maximum) over both axes is used. -/
def binRange [DecidableEq Q] (isPI : Bool) (X : List (List (Pt K Q))) (dim : Q) : PyM ((K × K) × (K × K)) := do
  let sub ← subdiagrams X [dim]
  let cols := columns isPI sub
  let lo0 ← npMin cols.1
  let lo1 ← npMin cols.2
  let hi0 ← npMax cols.1
  let hi1 ← npMax cols.2
  if isPI then .ok ((lo0, lo1), (hi0, hi1))
  else .ok ((min lo0 lo1, min lo0 lo1), (max hi0 hi1, max hi0 hi1))

/-- `_bin`, gtda/diagrams/_utils.py:125-167, for given homology dimensions: per dimension the sampling and step size of the two axes. For the metrics other than
persistence images only the first axis is kept (lines 163-166). -/
def binSampling [DecidableEq Q] (isPI : Bool) (nBins : Nat) (dims : List Q) (X : List (List (Pt K Q))) :
    PyM (List ((List K × Option K) × (List K × Option K))) := do
  let ranges ← dims.mapM (binRange isPI X)
  let g0 ← npMax (ranges.map fun r => r.2.1)
  let g1 ← npMax (ranges.map fun r => r.2.2)
  .ok (ranges.map fun r =>
    let hi0 := if r.2.1 ≠ r.1.1 then r.2.1 else g0
    let hi1 := if r.2.2 ≠ r.1.2 then r.2.2 else g1
    (linspace r.1.1 hi0 nBins, linspace r.1.2 hi1 nBins))

end Gtda.Diagrams
