import Verif.Model.FeatureObject
import Verif.Spec.Vectorizers

/-!
# Specification vocabulary for features of diagrams as objects
-/

set_option autoImplicit false

namespace Gtda.Spec.FeatureObject

open Gtda.Diagrams Gtda.FeatureObject

section

variable {P K Q : Type}

open Classical in
/-- What a history leaves: the present parameters, and the parameters and the data of the last `fit` that was acceptable, if there was one. -/
noncomputable def after (Acc : P → List (List (Pt K Q)) → Prop) (p : P × Option (P × List (List (Pt K Q)))) : List (Op P K Q) → P × Option (P × List (List (Pt K Q)))
  | [] => p
  | .setParams q :: ops => after Acc (q, p.2) ops
  | .fit X :: ops => after Acc (p.1, if Acc p.1 X then some (p.1, X) else p.2) ops
  | .transform _ _ :: ops => after Acc p ops

/-- The homology dimensions `Filtering` filters: the given ones in increasing order, or those of the first diagram. -/
def FilteredDims [LinearOrder Q] (given : Option (List Q)) (X : List (List (Pt K Q))) (dims : List Q) : Prop :=
  match given with
  | some l => dims.Perm l ∧ dims.Pairwise (· ≤ ·)
  | none => Spec.Vectorizers.DimsOfFirst dims X

end

/-- Acceptable parameters of `ComplexPolynomial` for diagrams with `n` homology dimensions: numbers of coefficients are positive, and a list has one for each dimension. -/
def PolyAcceptable (p : PolyParams) (t : PolyType) (n : Nat) : Prop :=
  p.polynomialType = some t ∧
    match p.nCoefficients with
    | .default => True
    | .int k => 1 ≤ k
    | .list l => (∀ k ∈ l, 1 ≤ k) ∧ l.length = n

/-- Operations on an object with parameters `p` that should leave what was fitted as it is: setting parameters, transforming, and calls of `fit` that are refused because the parameters are not
acceptable for any diagrams or the diagrams are not valid. -/
def Harmless {K Q : Type} [LE K] (p : PolyParams) : List (PolyOp K Q) → Prop
  | [] => True
  | .setParams q :: ops => Harmless q ops
  | .changeList _ :: _ => False
  | .fit X :: ops => ((∀ t n, ¬ PolyAcceptable p t n) ∨ ¬ Spec.Vectorizers.Valid X) ∧ Harmless p ops
  | .transform _ :: ops => Harmless p ops

/-- The numbers of coefficients: those given, the same for all dimensions if one is given, and the numbers of points of the first diagram if none is given. -/
def coefficientsOf {K Q : Type} [DecidableEq Q] (p : NCoeff) (dims : List Q) (X : List (List (Pt K Q))) : List Nat :=
  match p with
  | .default => dims.map fun q => (pointsIn (X.headD []) q).length
  | .int n => dims.map fun _ => n
  | .list l => l

end Gtda.Spec.FeatureObject
