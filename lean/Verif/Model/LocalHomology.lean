import Verif.Py.Basic
import Mathlib.Order.WithBot
import Mathlib.Algebra.Order.Field.Basic

set_option autoImplicit false

/-!
# Model of `gtda/local_homology/simplicial.py` and `gtda/metaestimators/collection_transformer.py`

Nearest neighbour searches and persistent homology are parameters.
-/

namespace Gtda.Local
open Gtda.Py

/-! ### Coned matrices -/

/-- `coned_mat`, gtda/local_homology/simplicial.py:123-152, for one point. `close` are the indices of close points, `annulus` is `list(set(relevant) - set(close))`, whose order is
not specified by Python; `dist u v` is the distance of points `u` and `v` of the fitted point cloud. `⊤` is infinity. -/
def conedMatrix {K : Type} [Zero K] (dist : Nat → Nat → K) (close annulus : List Nat) : List (List (WithTop K)) :=
  if close.length = 0 then [[0]]
  else
    let pts := close ++ annulus
    let localMat : List (List (WithTop K)) := pts.map fun u => pts.map fun v => (dist u v : WithTop K)
    let newRow : List (WithTop K) := List.replicate close.length ⊤ ++ List.replicate annulus.length 0
    let newCol := newRow ++ [0]
    List.zipWith (fun r x => r ++ [x]) (localMat ++ [newRow]) newCol

/-! ### State of the transformers -/

/-- `KNeighborsLocalVietorisRips`: the parameter `n_neighbors` and the attribute `neighborhood_params`. Used in `KNeighbors.init`, gtda/local_homology/simplicial.py:265-272. -/
structure KNeighbors where
  nNeighbors : Int × Int
  params : Int × Int
  deriving DecidableEq, Repr

/-- `KNeighborsLocalVietorisRips.__init__`, gtda/local_homology/simplicial.py:265-272. -/
def KNeighbors.init (n : Int × Int) : KNeighbors := ⟨n, n⟩

/-- `set_params(n_neighbors=n)` (scikit-learn: sets the attribute of that name). Inherited by the class of gtda/local_homology/simplicial.py:265-272. -/
def KNeighbors.setParams (s : KNeighbors) (n : Int × Int) : KNeighbors := { s with nNeighbors := n }

/-- `LocalVietorisRipsBase.fit` for this class, gtda/local_homology/simplicial.py:67-80: swap, and `self.radii` is an `AttributeError`. -/
def KNeighbors.baseFit (s : KNeighbors) : KNeighbors × PyM Unit :=
  let s := if s.params.2 < s.params.1 then { s with params := (s.params.2, s.params.1) } else s
  (s, if s.params.2 = 0 then .error .attributeError else .ok ())

/-- `KNeighborsLocalVietorisRips.fit` on `size` points, gtda/local_homology/simplicial.py:274-330: new state and the numbers of neighbours of the two neighbour searches.
`validate_params` checks that the entries of the parameter `n_neighbors` are at least one. -/
def KNeighbors.fit (s : KNeighbors) (size : Nat) : KNeighbors × PyM (Int × Int) :=
  match s.baseFit with
  | (s, .error e) => (s, .error e)
  | (s, .ok _) =>
    if s.nNeighbors.1 < 1 ∨ s.nNeighbors.2 < 1 then (s, .error .valueError)
    else if size = 0 then (s, .error .valueError)
    else
      let s := if (size : Int) ≤ s.params.1 then { s with params := ((size : Int) - 1, (size : Int)) } else s
      let s := if (size : Int) < s.params.2 then { s with params := (s.params.1, (size : Int)) } else s
      (s, .ok s.params)

section
variable {K : Type} [Field K] [LinearOrder K]

/-- `RadiusLocalVietorisRips`: the parameter `radii` and the attribute `neighborhood_params`. Used in `Radius.init`, gtda/local_homology/simplicial.py:402-409. -/
structure Radius (K : Type) where
  radii : K × K
  params : K × K

/-- `RadiusLocalVietorisRips.__init__`, gtda/local_homology/simplicial.py:402-409. -/
def Radius.init (r : K × K) : Radius K := ⟨r, r⟩

/-- `set_params(radii=r)`. Inherited by the class of gtda/local_homology/simplicial.py:402-409. -/
def Radius.setParams (s : Radius K) (r : K × K) : Radius K := { s with radii := r }

/-- `RadiusLocalVietorisRips.fit`, gtda/local_homology/simplicial.py:67-80 and 411-455: new state and the radii of the two neighbour searches. -/
def Radius.fit (s : Radius K) (size : Nat) : Radius K × PyM (K × K) :=
  let s := if s.params.2 < s.params.1 then { s with params := (s.params.2, s.params.1) } else s
  let s := if s.params.2 = 0 then { s with radii := (s.radii.1, 1) } else s
  if s.radii.1 < 0 ∨ s.radii.2 < 0 then (s, .error .valueError)
  else if size = 0 then (s, .error .valueError)
  else (s, .ok s.params)

end

/-! ### `CollectionTransformer` -/

/-- A transformer object with internal state `S`: `cloneable` if scikit-learn's `clone` accepts it (it has `get_params`); `clone` forgets everything but the parameters;
`fitTransform` returns the new state and the result. Used in `collectionFitTransform`, gtda/metaestimators/collection_transformer.py:132-166. -/
structure Transformer (S A B : Type) where
  hasFitTransform : Bool
  cloneable : Bool
  clone : S → S
  fitTransform : S → A → S × PyM B

/-- One parallel task: `fit_transform` of clone number `k` (memory cell `k + 1`; cell 0 is the wrapped transformer) on entry `k`, storing its result in slot `k`. Used in `collectionFitTransform`, gtda/metaestimators/collection_transformer.py:132-166. -/
def collectionStep {S A B : Type} (T : Transformer S A B) (X : List A) (st : List S × List (Option (PyM B))) (k : Nat) : List S × List (Option (PyM B)) :=
  match X[k]?, st.1[k + 1]? with
  | some x, some s => (st.1.set (k + 1) (T.fitTransform s x).1, st.2.set k (some (T.fitTransform s x).2))
  | _, _ => st

/-- `CollectionTransformer.fit_transform` after input validation, gtda/metaestimators/collection_transformer.py:132-166, for tasks executed in the order `order`: the state of
the wrapped transformer afterwards and the results. Stacking results of equal shape into one array does not change them. An empty list raises `IndexError` at `Xt[0]`. -/
def collectionFitTransform {S A B : Type} (T : Transformer S A B) (s : S) (order : List Nat) (X : List A) : Option S × PyM (List B) :=
  if T.hasFitTransform = false then (some s, .error .attributeError)
  else if X.length = 0 then (some s, .error .indexError)
  else if T.cloneable = false then (some s, .error .typeError)
  else
    let final := order.foldl (collectionStep T X) (s :: X.map (fun _ => T.clone s), List.replicate X.length none)
    (final.1.head?, final.2.mapM fun r => match r with | some y => y | none => .error .stopIteration)

end Gtda.Local
