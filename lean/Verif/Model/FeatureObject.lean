import Verif.Model.Features
import Verif.Model.Vectorizers

/-!
# Features and filtering of persistence diagrams as objects

Models `PersistenceEntropy`, `NumberOfPoints` and `ComplexPolynomial` of `gtda/diagrams/features.py` and `Filtering` of `gtda/diagrams/preprocessing.py` as objects: parameters that can be set at any
time, `fit` (which may fail half way) and `transform`. The computations are those of `Verif.Model.Features` and `Verif.Model.Diagrams`.

Simplifications: parameters have the types they should have (`n_coefficients` and homology dimensions are not negative); otherwise as in `Verif.Model.Vectorizers`.
-/

set_option autoImplicit false

namespace Gtda.FeatureObject

open Py Gtda.Diagrams

/-! ### Classes that store `homology_dimensions_` only -/

/-- What distinguishes the classes: validation of parameters, `homology_dimensions_` as a function of parameters and data, and `transform` after the checks, as a function of the parameters, of
`homology_dimensions_`, of the number of jobs and of the data. As in gtda/diagrams/features.py:107-186. -/
structure Cls (P K Q O : Type) where
  validate : P → PyM Unit
  dims : P → List (List (Pt K Q)) → PyM (List Q)
  body : P → List Q → Nat → List (List (Pt K Q)) → PyM O

/-- An object: parameters and `homology_dimensions_` (`none`: not set). As in gtda/diagrams/features.py:90-93, 140. -/
structure Obj (P Q : Type) where
  params : P
  dims : Option (List Q)

section

variable {P K Q O : Type} [Field K] [LinearOrder K] (c : Cls P K Q O)

/-- `fit`: the diagrams are checked, then the parameters. As in gtda/diagrams/features.py:133-144. -/
def fit (o : Obj P Q) (X : List (List (Pt K Q))) : Obj P Q × PyM Unit :=
  match Vectorizers.check X with
  | .error e => (o, .error e)
  | .ok () =>
      match c.validate o.params with
      | .error e => (o, .error e)
      | .ok () =>
          match c.dims o.params X with
          | .error e => (o, .error e)
          | .ok d => ({ o with dims := some d }, .ok ())

/-- `transform`. As in gtda/diagrams/features.py:171-186. -/
def transform (o : Obj P Q) (nJobs : Nat) (X : List (List (Pt K Q))) : PyM O :=
  match o.dims with
  | none => .error .notFitted
  | some d => do
      let _ ← Vectorizers.check X
      c.body o.params d nJobs X

/-- What is done with an object (`fit_transform` is `fit` and `transform`). As in gtda/diagrams/features.py:22-186. -/
inductive Op (P K Q : Type) where
  | setParams (p : P)
  | fit (X : List (List (Pt K Q)))
  | transform (nJobs : Nat) (X : List (List (Pt K Q)))

/-- The object after one operation, whether it raises or not. As in gtda/diagrams/features.py:22-186. -/
def step (o : Obj P Q) : Op P K Q → Obj P Q
  | .setParams p => { o with params := p }
  | .fit X => (fit c o X).1
  | .transform _ _ => o

/-- The object after a history. As in gtda/diagrams/features.py:22-186. -/
def run (o : Obj P Q) (ops : List (Op P K Q)) : Obj P Q := ops.foldl (step c) o

end

section

variable {K Q : Type} [Field K] [LinearOrder K] [LinearOrder Q]

/-- `PersistenceEntropy` with parameters `normalize` and `nan_fill_value`, gtda/diagrams/features.py:90-93, 107-144, 146-186; `fmax` is the largest float. -/
noncomputable def entropyCls (fmax : ℝ) : Cls (Bool × Option ℝ) ℝ Q (List (List (Option EReal))) where
  validate _ := .ok ()
  dims _ X := .ok (Vectorizers.observedDims X)
  body p d nJobs X := entropyTransform p.1 p.2 fmax d nJobs X

/-- `NumberOfPoints`, gtda/diagrams/features.py:434-435, 441-476, 478-514. -/
def pointsCls : Cls Unit K Q (List (List Nat)) where
  validate _ := .ok ()
  dims _ X := .ok (Vectorizers.observedDims X)
  body _ d nJobs X := numberPointsTransform d nJobs X

/-- `Filtering` with parameters `homology_dimensions` and `epsilon`, gtda/diagrams/preprocessing.py:399-409, 411-450, 452-481: `epsilon` is read by `transform`. -/
def filteringCls : Cls (Option (List Q) × K) K Q (List (List (Pt K Q))) where
  validate p := if p.2 < 0 then .error .valueError else .ok ()
  dims p X := filteringFit p.1 X
  body p d _ X := filterDiagrams X d p.2

end

/-! ### `ComplexPolynomial` -/

/-- Parameters: `n_coefficients`, and `polynomial_type` (`none` for a string that is no key), gtda/diagrams/features.py:603-606. -/
structure PolyParams where
  nCoefficients : NCoeff
  polynomialType : Option PolyType

/-- An object: parameters; `homology_dimensions_`, `n_coefficients_` and `_polynomial_function` (`none`: not set). `shared`: `n_coefficients_` is the list given as parameter, the same object,
gtda/diagrams/features.py:659. -/
structure Poly (Q : Type) where
  params : PolyParams
  dims : Option (List Q)
  coefficients : Option (List Nat)
  shared : Bool
  polynomial : Option PolyType

/-- `__init__`, gtda/diagrams/features.py:603-606. -/
def newPoly {Q : Type} (p : PolyParams) : Poly Q := ⟨p, none, none, false, none⟩

section

variable {K Q : Type} [Field K] [LinearOrder K] [LinearOrder Q]

/-- `validate_params` on `_hyperparameters`, gtda/diagrams/features.py:594-601. -/
def polyValidate (p : PolyParams) : PyM PolyType :=
  match p.nCoefficients, p.polynomialType with
  | .int 0, _ => .error .valueError
  | _, none => .error .valueError
  | .list l, some t => if l.any fun n => decide (n < 1) then .error .valueError else .ok t
  | _, some t => .ok t

/-- Whether `n_coefficients` is a list, gtda/diagrams/features.py:652. -/
def isListed : NCoeff → Bool
  | .list _ => true
  | _ => false

/-- `fit`, gtda/diagrams/features.py:608-667: parameters are validated, then diagrams; `homology_dimensions_` is replaced before the number of coefficients is looked at. -/
def polyFit (o : Poly Q) (X : List (List (Pt K Q))) : Poly Q × PyM Unit :=
  match polyValidate o.params with
  | .error e => (o, .error e)
  | .ok t =>
      match Vectorizers.check X with
      | .error e => (o, .error e)
      | .ok () =>
          let d := Vectorizers.observedDims X
          match fitCoefficients o.params.nCoefficients d (X.headD []) with
          | .error e => ({ o with dims := some d }, .error e)
          | .ok l => ({ o with dims := some d, coefficients := some l, shared := isListed o.params.nCoefficients, polynomial := some t }, .ok ())

/-- `self.n_coefficients_[d]`, gtda/diagrams/features.py:717. -/
def coefficientAt (l : Option (List Nat)) (k : Nat) : PyM Nat :=
  match l with
  | none => .error .attributeError
  | some l =>
      match l[k]? with
      | none => .error .indexError
      | some n => .ok n

/-- One task, gtda/diagrams/features.py:715-717: the arguments are computed first. -/
noncomputable def polyTask (o : Poly Q) (D : List (Pt ℝ Q)) (q : Q) (k : Nat) : PyM (List ℝ) := do
  let sub ← subdiagrams [D] [q]
  let n ← coefficientAt o.coefficients k
  match o.polynomial with
  | none => .error .attributeError
  | some t => complexPolynomial t n (sub.headD [])

/-- `transform`, gtda/diagrams/features.py:711-723. If several tasks raise, the exception is that of the first. -/
noncomputable def polyTransform (o : Poly Q) (X : List (List (Pt ℝ Q))) : PyM (List (List ℝ)) :=
  match o.dims with
  | none => .error .notFitted
  | some d => do
      let _ ← Vectorizers.check X
      let parts ← (X.flatMap fun D => d.zipIdx.map fun qk => (D, qk)).mapM fun x => polyTask o x.1 x.2.1 x.2.2
      let flat ← concatAxis0 parts
      reshape2 X.length (flat.length / X.length) flat

/-- What is done with an object; `changeList l`: the owner of a list given as `n_coefficients` changes its entries to `l`. As in gtda/diagrams/features.py:518-723. -/
inductive PolyOp (K Q : Type) where
  | setParams (p : PolyParams)
  | changeList (l : List Nat)
  | fit (X : List (List (Pt K Q)))
  | transform (X : List (List (Pt K Q)))

/-- The object after one operation, whether it raises or not. As in gtda/diagrams/features.py:518-723. -/
def polyStep (o : Poly Q) : PolyOp K Q → Poly Q
  | .setParams p => { o with params := p, shared := false }
  | .changeList l =>
      match o.params.nCoefficients with
      | .list _ =>
          { o with
            params := { o.params with nCoefficients := .list l }
            coefficients := if o.shared then some l else o.coefficients }
      | _ => o
  | .fit X => (polyFit o X).1
  | .transform _ => o

end

end Gtda.FeatureObject
