import Verif.Py.Basic
import Mathlib.Algebra.Order.Field.Basic
import Mathlib.Algebra.Order.Floor.Ring
import Mathlib.Order.WithBot
import Mathlib.Data.List.Sort
import Mathlib.Data.List.Dedup

set_option autoImplicit false

/-!
# Model of collections of persistence diagrams

`gtda/diagrams/_utils.py` (`_subdiagrams`, `_multirange`, `_filter`), `gtda/diagrams/preprocessing.py`, `gtda/utils/validation.py` (`check_diagrams`).

A collection of diagrams (array of shape `(n_samples, n_features, 3)`) is a list of lists of points. Except in `checkDiagrams`, births and deaths are
elements of a type `K` of exact numbers and homology dimensions elements of a linearly ordered type `Q`.
-/

namespace Gtda.Diagrams
open Gtda.Py

/-- A birth-death-dimension triple. Used in `subdiagramsSingle`, gtda/diagrams/_utils.py:21-39. -/
structure Pt (K Q : Type) where
  b : K
  d : K
  q : Q
  deriving DecidableEq, Repr

/-! ### Validation -/

/-- Finite or infinite floats; `⊥` is `-inf`, `⊤` is `inf`. Used in `checkDim`, gtda/utils/validation.py:63-77. -/
abbrev Ext (K : Type) := WithBot (WithTop K)

/-- An array as passed to `check_diagrams`: its shape, and (used only if the shape has three entries) its entries; `none` is NaN. Used in `checkDiagrams`, gtda/utils/validation.py:28-87. -/
structure Arr (K : Type) where
  shape : List Nat
  data : List (List (List (Option (Ext K))))

section
variable {K : Type} [Field K] [LinearOrder K] [FloorRing K]

/-- Loop body of gtda/utils/validation.py:63-77 for one homology dimension; `int(-inf)` raises `OverflowError`. -/
def checkDim (ndims : Nat) (dim : Ext K) : PyM Unit :=
  match dim with
  | ⊥ => .error .overflowError
  | some none => if ndims ≠ 1 then .error .valueError else .ok ()
  | some (some x) =>
    -- `int(x)` truncates towards zero
    let t : Int := if 0 ≤ x then ⌊x⌋ else ⌈x⌉
    if x ≠ (t : K) ∨ x < 0 then .error .valueError else .ok ()

/-- `check_diagrams`, gtda/utils/validation.py:28-87, with `_check_array_mod` (lines 14-25; NaNs and an empty first axis raise `ValueError`). Conversion to
a numeric array is not modelled. -/
def checkDiagrams (X : Arr K) : PyM (Arr K) :=
  if X.shape.headD 0 = 0 then .error .valueError
  else if X.shape.length = 3 ∧ (X.data.any fun D => D.any fun p => p.any (·.isNone)) then .error .valueError
  else if X.shape.length ≠ 3 then .error .valueError
  else if X.shape.getD 2 0 ≠ 3 then .error .valueError
  else do
    let dims := (((X.data.headD []).filterMap fun p => (p.getD 2 none)).dedup).insertionSort (· ≤ ·)
    let _ ← dims.mapM (checkDim dims.length)
    let below := X.data.flatten.filter fun p =>
      match p.getD 0 none, p.getD 1 none with
      | some b, some d => decide (d < b)
      | _, _ => false
    if below.length ≠ 0 then .error .valueError else .ok X

end

/-! ### Subdiagrams -/

/-- `a.reshape(n, m, …)` of an array whose first axis lists `a`: row-major, `ValueError` if the sizes do not match. Used in `subdiagramsSingle`, gtda/diagrams/_utils.py:21-39. -/
def reshape2 {α : Type} (n m : Nat) (l : List α) : PyM (List (List α)) :=
  if l.length = n * m then .ok ((List.range n).map fun i => (l.drop (i * m)).take m) else .error .valueError

section
variable {K Q : Type} [DecidableEq Q]

/-- `_subdiagrams_single_homology_dimension`, gtda/diagrams/_utils.py:21-39. `X[mask]` lists the selected triples in row-major order. -/
def subdiagramsSingle (X : List (List (Pt K Q))) (dim : Q) : PyM (List (List (Pt K Q))) :=
  match X with
  | [] => .error .indexError
  | X0 :: _ =>
    let n0 := (X0.filter fun p => p.q = dim).length
    reshape2 X.length n0 (X.flatten.filter fun p => p.q = dim)

/-- `np.concatenate(arrays, axis=1)` of arrays with the same first axis of length `n`; `ValueError` for an empty list. Used in `subdiagrams`, gtda/diagrams/_utils.py:14-52. -/
def concatAxis1 {α : Type} (n : Nat) (l : List (List (List α))) : PyM (List (List α)) :=
  match l with
  | [] => .error .valueError
  | _ => .ok (l.foldr (List.zipWith (· ++ ·)) (List.replicate n []))

/-- `_subdiagrams`, gtda/diagrams/_utils.py:14-52 (with `remove_dim=False`; `remove_dim=True` only drops the third entries). -/
def subdiagrams (X : List (List (Pt K Q))) (dims : List Q) : PyM (List (List (Pt K Q))) :=
  match X, dims with
  | [], _ => .error .indexError
  | _, [dim] => subdiagramsSingle X dim
  | _, dims => do
    let l ← dims.mapM (subdiagramsSingle X)
    concatAxis1 X.length l

end

/-! ### Filtering -/

/-- `np.cumsum`. Used in `multirange`, gtda/diagrams/_utils.py:63-77. -/
def cumsum (l : List Int) : List Int := (l.scanl (· + ·) 0).tail

/-- Successive assignments `a[i] = v` for `(i, v)` in `l`. Used in `multirange`, gtda/diagrams/_utils.py:63-77. -/
def setMany {α : Type} (a : List α) (l : List (Nat × α)) : List α := l.foldl (fun a p => a.set p.1 p.2) a

/-- `_multirange`, gtda/diagrams/_utils.py:63-77. -/
def multirange (counts : List Nat) : List Int :=
  let cs := (cumsum (counts.map fun (c : Nat) => (c : Int))).map Int.toNat
  let reset := cs.dropLast
  let incr := (List.replicate (cs.getLastD 0) (1 : Int)).set 0 0
  let incr := setMany incr (reset.zip (counts.dropLast.map fun (c : Nat) => 1 - (c : Int)))
  cumsum incr

/-- Run lengths: `np.unique(rows, return_counts=True)[1]` for sorted `rows`. Used in `filterDim`, gtda/diagrams/_utils.py:94-118. -/
def runCounts (rows : List Nat) : List Nat := rows.dedup.map fun r => rows.count r

/-- `a[i, j] = v`. Used in `filterDim`, gtda/diagrams/_utils.py:94-118. -/
def set2 {α : Type} (a : List (List α)) (i j : Nat) (v : α) : List (List α) := a.modify i fun r => r.set j v

section
variable {K Q : Type} [DecidableEq Q]

/-- `np.nonzero(mask)` with the selected entries: `(row, triple)` in row-major order, gtda/diagrams/_utils.py:96-99, 109. -/
def selected (p : Pt K Q → Bool) (X : List (List (Pt K Q))) : List (Nat × Pt K Q) :=
  X.zipIdx.flatMap fun D => (D.1.filter p).map fun x => (D.2, x)

/-- One iteration of the loop over filtered dimensions, gtda/diagrams/_utils.py:94-118; `alive` is the cutoff mask. -/
def filterDim [LinearOrder K] [Zero K] (alive : Pt K Q → Bool) (X : List (List (Pt K Q))) (dim : Q) : List (List (Pt K Q)) :=
  let n := X.length
  let sel := selected (fun p => decide (p.q = dim) && alive p) X
  match sel with
  | [] => List.replicate n [⟨0, 0, dim⟩]
  | s :: rest =>
    let rows := sel.map Prod.fst
    let counts := runCounts rows
    let maxN := counts.foldl max 0
    let minV := rest.foldl (fun m x => min m x.2.b) s.2.b
    let Xdim := List.replicate n (List.replicate maxN ⟨minV, minV, dim⟩)
    ((rows.zip (multirange counts)).zip (sel.map Prod.snd)).foldl (fun a t => set2 a t.1.1 t.1.2.toNat t.2) Xdim

/-- Subdiagrams in the dimensions which are not filtered, gtda/diagrams/_utils.py:86-89. -/
def unfilteredPart (X : List (List (Pt K Q))) (unfiltered : List Q) : PyM (List (List (Pt K Q))) :=
  if unfiltered.length = 0 then .ok (List.replicate X.length []) else subdiagrams X unfiltered

/-- `_filter`, gtda/diagrams/_utils.py:80-122. -/
def filterDiagrams [Field K] [LinearOrder K] [LinearOrder Q] (X : List (List (Pt K Q))) (filtered : List Q) (cutoff : K) :
    PyM (List (List (Pt K Q))) :=
  match X with
  | [] => .error .indexError
  | X0 :: _ => do
    let dims := ((X0.map Pt.q).dedup).insertionSort (· ≤ ·)
    let unfiltered := dims.filter fun q => q ∉ filtered
    let Xuf ← unfilteredPart X unfiltered
    let Xf := filtered.map (filterDim (fun p => decide (cutoff < p.d - p.b)) X)
    concatAxis1 X.length (Xf ++ [Xuf])

/-- Attribute `homology_dimensions_` set by `Filtering.fit`, gtda/diagrams/preprocessing.py:437-450 (after validation). -/
def filteringFit [LinearOrder Q] (homologyDimensions : Option (List Q)) (X : List (List (Pt K Q))) : PyM (List Q) :=
  match homologyDimensions with
  | some l => .ok (l.insertionSort (· ≤ ·))
  | none =>
    match X with
    | [] => .error .indexError
    | X0 :: _ => .ok (((X0.map Pt.q).dedup).insertionSort (· ≤ ·))

end

/-! ### ForgetDimension and Scaler -/

section
variable {K : Type} [Field K] [LinearOrder K] [FloorRing K]

/-- A Python heap: arrays are referred to by their position. Used in `checkDiagramsRef`, gtda/utils/validation.py:48-49, 87. -/
abbrev Heap (K : Type) := List (Arr K)

/-- `X = check_diagrams(X, copy=copy)` with aliasing: without a copy the returned reference is the argument itself, gtda/utils/validation.py:48-49, 87. -/
def checkDiagramsRef (h : Heap K) (r : Nat) (copy : Bool) : PyM (Heap K × Nat) :=
  match h[r]? with
  | none => .error .attributeError
  | some X => do
    let X ← checkDiagrams X
    .ok (if copy then (h ++ [X], h.length) else (h, r))

/-- In-place update of all triples of the array at `r`. Used in `forgetDimension`, gtda/diagrams/preprocessing.py:84-89. -/
def updateTriples (h : Heap K) (r : Nat) (f : List (Option (Ext K)) → List (Option (Ext K))) : Heap K :=
  h.modify r fun X => { X with data := X.data.map fun D => D.map f }

/-- `ForgetDimension.transform`, gtda/diagrams/preprocessing.py:84-89. -/
def forgetDimension (h : Heap K) (r : Nat) : PyM (Heap K × Nat) := do
  let a ← checkDiagramsRef h r true
  .ok (updateTriples a.1 a.2 (fun p => p.set 2 (some ((⊤ : WithTop K) : Ext K))), a.2)

/-- IEEE division of an entry by a finite scale, exact on finite numbers (`x / 0` is `±inf` or NaN). Zeros are unsigned. Used in `scalerTransform`, gtda/diagrams/preprocessing.py:292-296. -/
def divE (x : Option (Ext K)) (s : K) : Option (Ext K) :=
  match x with
  | none => none
  | some ⊥ => if 0 ≤ s then some ⊥ else some ((⊤ : WithTop K) : Ext K)
  | some (some none) => if 0 ≤ s then some ((⊤ : WithTop K) : Ext K) else some ⊥
  | some (some (some v)) =>
    if s ≠ 0 then some (((v / s : K) : WithTop K) : Ext K)
    else if v = 0 then none else if 0 < v then some ((⊤ : WithTop K) : Ext K) else some ⊥

/-- IEEE multiplication of an entry by a finite scale, exact on finite numbers (`inf * 0` is NaN). Used in `scalerInverse`, gtda/diagrams/preprocessing.py:313-317. -/
def mulE (x : Option (Ext K)) (s : K) : Option (Ext K) :=
  match x with
  | none => none
  | some ⊥ => if s = 0 then none else if 0 < s then some ⊥ else some ((⊤ : WithTop K) : Ext K)
  | some (some none) => if s = 0 then none else if 0 < s then some ((⊤ : WithTop K) : Ext K) else some ⊥
  | some (some (some v)) => some (((v * s : K) : WithTop K) : Ext K)

/-- `Scaler.transform`, gtda/diagrams/preprocessing.py:292-296. -/
def scalerTransform (scale : K) (h : Heap K) (r : Nat) : PyM (Heap K × Nat) := do
  let a ← checkDiagramsRef h r true
  .ok (updateTriples a.1 a.2 (fun p => p.mapIdx fun i x => if i < 2 then divE x scale else x), a.2)

/-- `Scaler.inverse_transform`, gtda/diagrams/preprocessing.py:313-317. -/
def scalerInverse (scale : K) (h : Heap K) (r : Nat) : PyM (Heap K × Nat) := do
  let a ← checkDiagramsRef h r true
  .ok (updateTriples a.1 a.2 (fun p => p.mapIdx fun i x => if i < 2 then mulE x scale else x), a.2)

end

end Gtda.Diagrams
