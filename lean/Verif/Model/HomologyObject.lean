import Verif.Model.Persistence

set_option autoImplicit false

/-!
# Model of the persistent homology transformers as estimators

The seven classes of `gtda/homology/simplicial.py` and `gtda/homology/cubical.py` as objects: parameters that can be set at any time, `fit`, which may fail half way and leaves behind what it
has stored until then, and `transform`, which reads stored attributes as well as current parameters.

Simplifications: the engines (ripser, flagser, GUDHI), the checks of input arrays (`check_point_clouds`, `check_collection`, modelled in `Verif/Model/InputChecks.lean`), `validate_params` on the constructor
parameters (modelled in `Verif/Model/Validation.lean`) and `np.max` are arbitrary functions, gathered in `Env`. Parameters that are only handed on to an engine (`metric_params`, `collapse_edges`, `epsilon`,
`directed`, `filtration`, `max_entries`, the metric itself) are one opaque value `rest`. Accepted homology dimensions are natural numbers. The preparation of engine arguments per sample is modelled
elsewhere (flattening of images, Delaunay edges).
-/

namespace Gtda.HomologyObject
open Gtda.Py Gtda.Parallel Gtda.Diagrams Gtda.Validation Gtda.Persistence

/-- The classes, gtda/homology/simplicial.py:39, 349, 734, 1005, 1255, 1480 and gtda/homology/cubical.py:19. -/
inductive Kind
  | rips | weighted | sparse | weakAlpha | cech | flagser | cubical
  deriving DecidableEq, Repr

/-- Constructor parameters of all classes together, gtda/homology/simplicial.py:162-174, 529-543, 843-853, 1098-1106, 1338-1346, 1597-1609 and gtda/homology/cubical.py:111-119. `maxEdge` is
`max_edge_length` or `max_edge_weight`, `precomputed` says whether `metric == "precomputed"`; a class does not use the fields it has no parameter for; `n_jobs` is the order of execution in `transform`. -/
structure HParams (V A : Type) where
  dims : List Nat
  coeff : Nat
  maxEdge : V
  inf : Option V
  reduced : Bool
  precomputed : Bool
  weights : Weights
  weightParams : List (String × PyVal)
  periodic : Option (List Bool)
  rest : A

/-- What is handed to an engine for every sample (`none`: no such argument), gtda/homology/simplicial.py:177-182, 550-556, 856-866, 1126-1128, 1349-1354, 1613-1618 and gtda/homology/cubical.py:122-128. -/
structure Call (V A : Type) where
  minDim : Option Nat
  maxDim : Option Nat
  thresh : Option V
  coeff : Nat
  precomputed : Option Bool
  weights : Option (Weights × List (String × PyVal))
  periodic : Option (List Bool)
  rest : A

/-- Code that is not modelled here: `validate_params`, the checks of input arrays (the flag is `distance_matrices`), the largest pixel, the engines that return one diagram per dimension, the engines that
return pairs with dimensions, and what numpy puts for NaN and `-inf`. See gtda/homology/simplicial.py:228-233, 176-184 and gtda/homology/cubical.py:121-130, 152-154, 168-172. -/
structure Env (V S A : Type) where
  validate : Kind → HParams V A → PyM Unit
  check : Kind → Bool → List S → PyM Unit
  largest : List S → PyM V
  dgms : Kind → Call V A → S → PyM (List (List (Raw V × Raw V)))
  pairs : Kind → Call V A → S → PyM (List (Nat × (Raw V × Raw V)))
  zero : V
  lowest : V

/-- A transformer: its parameters, and the attributes set by `fit` (`none`: not set): `_is_precomputed`, `effective_weight_params_`, what is set for periodic images (the inner `none` stands for
`CubicalComplex`), `infinity_values_`, `_homology_dimensions`, `_min_homology_dimension`, `_max_homology_dimension`. See gtda/homology/simplicial.py:231-243, 606-627, 1664-1671 and gtda/homology/cubical.py:156-177. -/
structure HEst (V A : Type) where
  params : HParams V A
  isPre : Option Bool
  eff : Option (List (String × PyVal))
  periodic : Option (Option (List Bool))
  inf : Option V
  dims : Option (List Nat)
  minDim : Option Nat
  maxDim : Option Nat

section
variable {V S A : Type}

/-- `__init__`, gtda/homology/simplicial.py:162-174 (and the other classes). -/
def hnew (P : HParams V A) : HEst V A := ⟨P, none, none, none, none, none, none, none⟩

/-- `set_params` (inherited from scikit-learn): only parameters are replaced. Used with `fit`, gtda/homology/simplicial.py:186-243. -/
def hset (P : HParams V A) (e : HEst V A) : HEst V A := { e with params := P }

/-- The part of `fit` which determines `effective_weight_params_`: its new value (`none`: not replaced), and whether it succeeds, gtda/homology/simplicial.py:603-615. The dictionary is filled in place, so that
a rejected one stays. -/
def weightStep (P : HParams V A) : Option (List (String × PyVal)) × PyM Unit :=
  match P.weights with
  | .str s =>
    if s ≠ "DTM" then (none, .error .valueError)
    else
      let d := dictUpdate [("p", .int 1)] [("n_neighbors", .int 3), ("r", .int 2)]
      if P.weightParams.isEmpty then (some d, .ok ()) else (some (dictUpdate d P.weightParams), validateParams (dictUpdate d P.weightParams) (ripsWeightRefs true) [])
  | .fn =>
    if P.weightParams.isEmpty then (some [("p", .int 1)], .ok ())
    else (some (dictUpdate [("p", .int 1)] P.weightParams), validateParams (dictUpdate [("p", .int 1)] P.weightParams) (ripsWeightRefs false) [])

/-- What is checked before anything else in `fit`: parameters, and data first in three classes, gtda/homology/simplicial.py:228-229, 601-602, 899-900, 1156-1157, 1382-1384, 1659-1662 and gtda/homology/cubical.py:152-154. -/
def precheck (E : Env V S A) (k : Kind) (X : List S) (P : HParams V A) : PyM Unit :=
  match k with
  | .rips | .weighted | .sparse => E.validate k P
  | .weakAlpha => do
    E.validate k P
    E.check k false X
  | .cech | .cubical => do
    E.check k false X
    E.validate k P
  | .flagser => do
    E.check k true X
    E.validate k P

/-- The next part of `fit`: `effective_weight_params_`, `_is_precomputed` followed by the check of the data, and the attributes for periodic images, gtda/homology/simplicial.py:603-619, 231-233, 901-903 and
gtda/homology/cubical.py:156-166. -/
def prepare (E : Env V S A) (k : Kind) (X : List S) (e : HEst V A) : HEst V A × PyM Unit :=
  match k with
  | .rips | .sparse => ({ e with isPre := some e.params.precomputed }, E.check k e.params.precomputed X)
  | .weighted =>
    let w := weightStep e.params
    let e1 : HEst V A := { e with eff := w.1.or e.eff }
    match w.2 with
    | .error er => (e1, .error er)
    | .ok _ => ({ e1 with isPre := some e.params.precomputed }, E.check k e.params.precomputed X)
  | .cubical => ({ e with periodic := some (cubicalPeriodic X.length e.params.periodic).2 }, .ok ())
  | .weakAlpha | .cech | .flagser => (e, .ok ())

/-- The value of `infinity_values_`, gtda/homology/simplicial.py:235-238 (and the other classes), gtda/homology/cubical.py:168-174. -/
def infinityValue (E : Env V S A) (k : Kind) (X : List S) (P : HParams V A) : PyM V :=
  match P.inf with
  | some v => .ok v
  | none => if k = .cubical then E.largest X else .ok P.maxEdge

/-- `fit`, gtda/homology/simplicial.py:228-243, 601-629, 899-912, 1156-1168, 1382-1394, 1659-1673 and gtda/homology/cubical.py:152-179: the object afterwards, and whether the call succeeded. Attributes are
replaced as the call proceeds. `_min_homology_dimension` is set only by `FlagserPersistence`. -/
def hfit (E : Env V S A) (k : Kind) (X : List S) (e : HEst V A) : HEst V A × PyM Unit :=
  match precheck E k X e.params with
  | .error er => (e, .error er)
  | .ok _ =>
    match prepare E k X e with
    | (e1, .error er) => (e1, .error er)
    | (e1, .ok _) =>
      match infinityValue E k X e.params with
      | .error er => (e1, .error er)
      | .ok inf =>
        let dims := e.params.dims.insertionSort (· ≤ ·)
        let e2 : HEst V A := { e1 with inf := some inf, dims := some dims }
        match dims.head?, dims.getLast? with
        | some a, some b => ({ e2 with minDim := if k = .flagser then some a else e2.minDim, maxDim := some b }, .ok ())
        | _, _ => (e2, .error .indexError)

/-- `check_is_fitted(self)`: there is an attribute whose name ends with an underscore, gtda/homology/simplicial.py:298, 683, 954, 1205, 1430, 1720 and gtda/homology/cubical.py:212. -/
def isFitted (k : Kind) (e : HEst V A) : Bool :=
  match k with
  | .rips | .sparse | .weakAlpha | .cech | .flagser => e.inf.isSome
  | .weighted => e.inf.isSome || e.eff.isSome
  | .cubical => e.inf.isSome || e.periodic.isSome

/-- `self.attribute`: `AttributeError` if it is not set. Used in `callOf`, gtda/homology/simplicial.py:178. -/
def getAttr {β : Type} : Option β → PyM β
  | none => .error .attributeError
  | some a => .ok a

/-- `max(self._homology_dimensions)`, gtda/homology/simplicial.py:862, 1351: `ValueError` for an empty list. -/
def maxOf (l : List Nat) : PyM Nat :=
  match l with
  | [] => .error .valueError
  | a :: t => .ok (t.foldl max a)

/-- The arguments of the engine, gtda/homology/simplicial.py:177-182 (Vietoris–Rips), 546-556 (weighted), 856-866 (sparse), 1126-1128 (weak alpha), 1349-1354 (Čech), 1612-1618 (flagser) and
gtda/homology/cubical.py:122-128. -/
def callOf (k : Kind) (e : HEst V A) : PyM (Call V A) :=
  let P := e.params
  match k with
  | .rips => do
    let m ← getAttr e.maxDim
    .ok ⟨none, some m, some P.maxEdge, P.coeff, some P.precomputed, none, none, P.rest⟩
  | .weighted => do
    let m ← getAttr e.maxDim
    let w ← getAttr e.eff
    .ok ⟨none, some m, some P.maxEdge, P.coeff, some P.precomputed, some (P.weights, w), none, P.rest⟩
  | .sparse => do
    let dims ← getAttr e.dims
    let m ← maxOf dims
    .ok ⟨none, some (m + 1), some P.maxEdge, P.coeff, some P.precomputed, none, none, P.rest⟩
  | .weakAlpha => do
    let m ← getAttr e.maxDim
    .ok ⟨none, some m, some P.maxEdge, P.coeff, none, none, none, P.rest⟩
  | .cech => do
    let dims ← getAttr e.dims
    let m ← maxOf dims
    .ok ⟨none, some (m + 1), some P.maxEdge, P.coeff, none, none, none, P.rest⟩
  | .flagser => do
    let a ← getAttr e.minDim
    let m ← getAttr e.maxDim
    .ok ⟨some a, some m, some P.maxEdge, P.coeff, none, none, none, P.rest⟩
  | .cubical => do
    let p ← getAttr e.periodic
    .ok ⟨none, none, none, P.coeff, none, none, p, P.rest⟩

/-- The padding of flagser's diagrams to all dimensions from 0, gtda/homology/simplicial.py:1612-1621. -/
def alignFlagser (c : Call V A) (l : List (List (Raw V × Raw V))) : List (List (Raw V × Raw V)) :=
  let Xdgms := List.replicate (c.minDim.getD 0) [] ++ l
  let missing : Int := ((c.maxDim.getD 0 : Nat) : Int) + 1 - (Xdgms.length : Int)
  if missing ≠ 0 then Xdgms ++ List.replicate missing.toNat [] else Xdgms

/-- The raw diagram of one sample, gtda/homology/simplicial.py:176-184, 545-558, 855-868, 1108-1130, 1348-1356, 1611-1623 and gtda/homology/cubical.py:121-130. -/
def rawDiagram (E : Env V S A) (k : Kind) (e : HEst V A) (x : S) : PyM (RawDiagram V) := do
  let c ← callOf k e
  match k with
  | .rips | .weighted | .weakAlpha => do
    let l ← E.dgms k c x
    .ok (.byDim l)
  | .flagser => do
    let l ← E.dgms k c x
    .ok (.byDim (alignFlagser c l))
  | .sparse | .cech | .cubical => do
    let l ← E.pairs k c x
    .ok (.gudhi l)

/-- The argument `format` of `_postprocess_diagrams`, gtda/homology/simplicial.py:306, 691, 962, 1212, 1437, 1727 and gtda/homology/cubical.py:219. -/
def formatOf : Kind → Format
  | .rips | .weighted | .weakAlpha => .ripser
  | .flagser => .flagser
  | .sparse | .cech | .cubical => .gudhi

/-- The argument `distance_matrices` in `transform`, gtda/homology/simplicial.py:299-300, 684-685, 955-956, 1206, 1431, 1721. -/
def transformFlag (k : Kind) (e : HEst V A) : PyM Bool :=
  match k with
  | .rips | .weighted | .sparse => getAttr e.isPre
  | .flagser => .ok true
  | .weakAlpha | .cech | .cubical => .ok false

/-- `transform`, gtda/homology/simplicial.py:298-309, 683-694, 954-965, 1205-1215, 1430-1440, 1720-1730 and gtda/homology/cubical.py:212-223. `order` is the order in which the parallel tasks are
executed, `garbage` the content of uninitialised memory. -/
def htransform [LinearOrder V] (E : Env V S A) (k : Kind) (garbage : Nat → Nat → Pt V Nat) (order : List Nat) (Y : List S) (e : HEst V A) : PyM (List (List (Pt V Nat))) :=
  if isFitted k e then do
    let flag ← transformFlag k e
    E.check k flag Y
    let Xt ← Mapper.scheduled (Y.map fun y _ => rawDiagram E k e y) order
    let dims ← getAttr e.dims
    let inf ← getAttr e.inf
    postprocess (formatOf k) dims inf E.zero E.lowest e.params.reduced garbage Xt
  else .error .notFitted

/-- What a user does with a transformer before calling `transform`. Used with `fit`, gtda/homology/simplicial.py:186-243. -/
inductive HOp (V S A : Type)
  | fit (X : List S)
  | set (P : HParams V A)

/-- The object after a sequence of such operations, exceptions being caught. Used with `fit`, gtda/homology/simplicial.py:186-243. -/
def hrun (E : Env V S A) (k : Kind) (ops : List (HOp V S A)) (e : HEst V A) : HEst V A :=
  ops.foldl (fun e op => match op with
    | .fit X => (hfit E k X e).1
    | .set P => hset P e) e

end

end Gtda.HomologyObject
