import Verif.Model.HomologyObject
import Mathlib.Order.WithBot
import Mathlib.Algebra.Order.Field.Basic
import Mathlib.Data.List.Dedup

set_option autoImplicit false

/-!
# Model of the local homology transformers as objects

`gtda/local_homology/simplicial.py`: fitting on a point cloud, and computing the diagrams at the points of another one. Parameters can be set at any time, `fit` may fail half way, and `transform` refits the
transformer of persistent homology that `fit` has created.

Simplifications: the searches of scikit-learn, `pdist`, `check_array`, the validation of the parameters that both classes share, and the engine of persistent homology are arbitrary functions, gathered in `LocalEnv`.
Points are opaque. The values given for `n_neighbors` are integers, those for `radii` are members of an ordered field. Warnings are not modelled. A search whose `fit` fails stays not fitted.
-/

namespace Gtda.LocalObject
open Gtda.Py Gtda.Diagrams Gtda.HomologyObject

/-- Code that is not modelled: the distance `metric(p, q)`, whether a metric is known to the searches and to `pdist`, the results of the two kinds of searches for one point (indices of training points),
the order in which a set is iterated over, `check_array`, the check that transformed and training points are comparable, the validation of `metric`, `homology_dimensions` and `collapse_edges`, and
the persistent homology of distance matrices. See gtda/local_homology/simplicial.py:115-154, 297-299, 314-329. -/
structure LocalEnv (P M K : Type) where
  dist : M → P → P → K
  searchKnows : M → Bool
  pdistKnows : M → Bool
  within : M → K → List P → P → List Nat
  nearest : M → Nat → List P → P → List Nat
  arrange : List Nat → List Nat
  check : List P → PyM Unit
  comparable : List P → List P → PyM Unit
  validate : M → List Nat → Bool → PyM Unit
  engine : HomologyObject.Env (WithTop K) (List (List (WithTop K))) Bool

/-- What distinguishes the two classes: whether there is an attribute `radii`, which values are accepted by `validate_params`, how sizes are reduced to the number of training points (`none`: there is
no attribute `size_`), which sizes a search accepts, and the searches. See gtda/local_homology/simplicial.py:195-330 and 334-455. -/
structure Cls (P M T : Type) where
  hasRadii : Bool
  valid : T × T → Bool
  clip : Option (Nat → T × T → T × T)
  searchable : T → Bool
  search : T → M → List P → P → List Nat

/-- A transformer of scikit-learn that searches for neighbours: its size, its metric, and its training data (`none`: not fitted). Used in `fit`, gtda/local_homology/simplicial.py:314-329. -/
structure Search (P M T : Type) where
  size : T
  metric : M
  data : Option (List P)

/-- A local homology transformer: parameters (`given` is `n_neighbors` or `radii`), the attribute `neighborhood_params`, and what `fit` sets (`none`: not set). See gtda/local_homology/simplicial.py:30-65, 302, 314-329. -/
structure Obj (P M T K : Type) where
  metric : M
  dims : List Nat
  collapse : Bool
  given : T × T
  nbhd : T × T
  homology : Option (HEst (WithTop K) Bool)
  size : Option Nat
  close : Option (Search P M T)
  relevant : Option (Search P M T)

section
variable {P M T K : Type} [LinearOrder T] [Zero T] [One T]

/-- `__init__`, gtda/local_homology/simplicial.py:30-52, 265-272 and 402-409. -/
def new (metric : M) (dims : List Nat) (collapse : Bool) (given : T × T) : Obj P M T K := ⟨metric, dims, collapse, given, given, none, none, none, none⟩

/-- The parameters of the transformer of persistent homology, gtda/local_homology/simplicial.py:60-65: everything else has its default value. -/
def homologyParams (dims : List Nat) (collapse : Bool) : HParams (WithTop K) Bool where
  dims := dims
  coeff := 2
  maxEdge := ⊤
  inf := none
  reduced := true
  precomputed := true
  weights := .fn
  weightParams := []
  periodic := none
  rest := collapse

/-- `LocalVietorisRipsBase.fit`, gtda/local_homology/simplicial.py:54-80. -/
def baseFit (c : Cls P M T) (o : Obj P M T K) : Obj P M T K × PyM Unit :=
  let o1 : Obj P M T K := { o with homology := some (hnew (homologyParams o.dims o.collapse)) }
  let o2 : Obj P M T K := if o1.nbhd.2 < o1.nbhd.1 then { o1 with nbhd := (o1.nbhd.2, o1.nbhd.1) } else o1
  if o2.nbhd.2 = 0 then
    if c.hasRadii then ({ o2 with given := (o2.given.1, 1) }, .ok ()) else (o2, .error .attributeError)
  else (o2, .ok ())

/-- The reduction of the sizes to the number `n` of training points, gtda/local_homology/simplicial.py:302-311 (nothing for radii). -/
def resize (c : Cls P M T) (n : Nat) (o : Obj P M T K) : Obj P M T K :=
  match c.clip with
  | some f => { o with size := some n, nbhd := f n o.nbhd }
  | none => o

/-- `fit` of a search. Used in `fit`, gtda/local_homology/simplicial.py:328-329 and 453-454. -/
def searchFit (E : LocalEnv P M K) (c : Cls P M T) (F : List P) (s : Search P M T) : Search P M T × PyM Unit :=
  if E.searchKnows s.metric ∧ c.searchable s.size then ({ s with data := some F }, .ok ()) else (s, .error .valueError)

/-- `fit`, gtda/local_homology/simplicial.py:295-330 and 432-455: the object afterwards, and whether the call succeeded. -/
def fit (E : LocalEnv P M K) (c : Cls P M T) (F : List P) (o : Obj P M T K) : Obj P M T K × PyM Unit :=
  match baseFit c o with
  | (o1, .error e) => (o1, .error e)
  | (o1, .ok _) =>
    match E.validate o1.metric o1.dims o1.collapse with
    | .error e => (o1, .error e)
    | .ok _ =>
      if c.valid o1.given then
        match E.check F with
        | .error e => (o1, .error e)
        | .ok _ =>
          let o2 := resize c F.length o1
          let s0 : Search P M T := ⟨o2.nbhd.1, o2.metric, none⟩
          let s1 : Search P M T := ⟨o2.nbhd.2, o2.metric, none⟩
          match searchFit E c F s0 with
          | (t0, .error e) => ({ o2 with close := some t0, relevant := some s1 }, .error e)
          | (t0, .ok _) =>
            match searchFit E c F s1 with
            | (t1, .error e) => ({ o2 with close := some t0, relevant := some t1 }, .error e)
            | (t1, .ok _) => ({ o2 with close := some t0, relevant := some t1 }, .ok ())
      else (o1, .error .valueError)

/-- `transform` of a search: the indices of the neighbours of each point. Used in `transform`, gtda/local_homology/simplicial.py:120-121. -/
def searchTransform (E : LocalEnv P M K) (c : Cls P M T) (s : Option (Search P M T)) (Y : List P) : PyM (List (List Nat)) := do
  let s ← getAttr s
  match s.data with
  | none => .error .notFitted
  | some F => do
    E.comparable F Y
    .ok (Y.map (c.search s.size s.metric F))

/-- `squareform(pdist(points, metric))`, gtda/local_homology/simplicial.py:141-142: the distance of each pair of points is computed once, and the diagonal is zero. -/
def squarePdist [Zero K] (d : P → P → K) (pts : List P) : List (List K) :=
  pts.zipIdx.map fun p => pts.zipIdx.map fun q => if p.2 < q.2 then d p.1 q.1 else if q.2 < p.2 then d q.1 p.1 else 0

/-- `self.relevant_neighbors_._fit_X[int(y)]`, gtda/local_homology/simplicial.py:138. -/
def pointAt (F : List P) (j : Nat) : PyM P :=
  match F[j]? with
  | some p => .ok p
  | none => .error .indexError

/-- The matrix for one point, gtda/local_homology/simplicial.py:125-152. `F` are the training points of `relevant_neighbors_`; an index beyond them raises `IndexError`. -/
def conedMat [Zero K] (E : LocalEnv P M K) (metric : M) (F : List P) (closeIndices relevantIndices : List Nat) : PyM (List (List (WithTop K))) :=
  let annulus := E.arrange (relevantIndices.filter fun j => decide (j ∉ closeIndices)).dedup
  if closeIndices.length = 0 then .ok [[0]]
  else do
    let pts ← (closeIndices ++ annulus).mapM (pointAt F)
    if E.pdistKnows metric then
      let localMat := (squarePdist (E.dist metric) pts).map fun r => r.map fun (x : K) => (x : WithTop K)
      let newRow : List (WithTop K) := List.replicate closeIndices.length ⊤ ++ List.replicate annulus.length 0
      .ok (List.zipWith (fun r x => r ++ [x]) (localMat ++ [newRow]) (newRow ++ [0]))
    else .error .valueError

/-- The training points of `self.relevant_neighbors_`, gtda/local_homology/simplicial.py:138. -/
def trainingPoints (o : Obj P M T K) : List P :=
  match o.relevant with
  | some s => s.data.getD []
  | none => []

/-- What `transform` does before computing persistent homology: the matrices, gtda/local_homology/simplicial.py:115-152. -/
def matrices [Zero K] (E : LocalEnv P M K) (c : Cls P M T) (Y : List P) (o : Obj P M T K) : PyM (List (List (List (WithTop K)))) := do
  if o.size.isSome ∨ o.close.isSome ∨ o.relevant.isSome then
    E.check Y
    let a ← searchTransform E c o.close Y
    let b ← searchTransform E c o.relevant Y
    (List.zip a b).mapM fun r => conedMat E o.metric (trainingPoints o) r.1 r.2
  else .error .notFitted

/-- `transform`, gtda/local_homology/simplicial.py:115-155: the object afterwards, and the diagrams. `fit_transform` of the transformer of persistent homology changes that transformer. -/
def transform [LinearOrder K] [Zero K] (E : LocalEnv P M K) (c : Cls P M T) (garbage : Nat → Nat → Pt (WithTop K) Nat) (order : List Nat) (Y : List P) (o : Obj P M T K) :
    Obj P M T K × PyM (List (List (Pt (WithTop K) Nat))) :=
  match matrices E c Y o with
  | .error e => (o, .error e)
  | .ok mats =>
    match o.homology with
    | none => (o, .error .attributeError)
    | some h =>
      match hfit E.engine .rips mats h with
      | (h1, .error e) => ({ o with homology := some h1 }, .error e)
      | (h1, .ok _) => ({ o with homology := some h1 }, htransform E.engine .rips garbage order mats h1)

/-- What a user does with a transformer. Used with gtda/local_homology/simplicial.py:54-155. -/
inductive Op (P M T : Type)
  | fit (F : List P)
  | transform (Y : List P)
  | setMetric (m : M)
  | setDims (d : List Nat)
  | setCollapse (b : Bool)
  | setGiven (g : T × T)

/-- One operation, exceptions being caught; `set_params` (scikit-learn) replaces parameters only. Used with gtda/local_homology/simplicial.py:54-155. -/
def step [LinearOrder K] [Zero K] (E : LocalEnv P M K) (c : Cls P M T) (garbage : Nat → Nat → Pt (WithTop K) Nat) (order : List Nat) (o : Obj P M T K) : Op P M T → Obj P M T K
  | .fit F => (fit E c F o).1
  | .transform Y => (transform E c garbage order Y o).1
  | .setMetric m => { o with metric := m }
  | .setDims d => { o with dims := d }
  | .setCollapse b => { o with collapse := b }
  | .setGiven g => { o with given := g }

/-- A sequence of operations. Used with gtda/local_homology/simplicial.py:54-155. -/
def run [LinearOrder K] [Zero K] (E : LocalEnv P M K) (c : Cls P M T) (garbage : Nat → Nat → Pt (WithTop K) Nat) (order : List Nat) (ops : List (Op P M T)) (o : Obj P M T K) : Obj P M T K :=
  ops.foldl (step E c garbage order) o

end

section
variable {P M K : Type}

/-- `KNeighborsLocalVietorisRips`, gtda/local_homology/simplicial.py:252-330. Entries of `n_neighbors` must be at least one; sizes are reduced as in lines 303-311; a search for less than one neighbour is refused
by scikit-learn. -/
def kCls (E : LocalEnv P M K) : Cls P M Int where
  hasRadii := false
  valid g := decide (1 ≤ g.1 ∧ 1 ≤ g.2)
  clip := some fun n p =>
    let p := if (n : Int) ≤ p.1 then ((n : Int) - 1, (n : Int)) else p
    if (n : Int) < p.2 then (p.1, (n : Int)) else p
  searchable k := decide (1 ≤ k)
  search k m F y := E.nearest m k.toNat F y

/-- `RadiusLocalVietorisRips`, gtda/local_homology/simplicial.py:390-455. Radii must not be negative. -/
def rCls [LinearOrder K] [Zero K] (E : LocalEnv P M K) : Cls P M K where
  hasRadii := true
  valid g := decide (0 ≤ g.1 ∧ 0 ≤ g.2)
  clip := none
  searchable _ := true
  search r m F y := E.within m r F y

end

end Gtda.LocalObject
