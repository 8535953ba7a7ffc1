import Verif.Spec.Persistence
import Verif.Model.HomologyObject

set_option autoImplicit false

/-!
# Specification vocabulary for the persistent homology transformers as estimators
-/

namespace Gtda.Spec.HomologyObject
open Gtda.Py Gtda.Diagrams Gtda.Persistence Gtda.Validation Gtda.HomologyObject

variable {V S A : Type}

/-- The arguments with which the engine is meant to be called for an estimator with parameters `P`, given the smallest and the largest requested dimension and the effective weight parameters. Complexes built
by GUDHI have one dimension more than the homology. -/
def intendedCall (k : Kind) (P : HParams V A) (lo hi : Nat) (w : List (String × PyVal)) : Call V A where
  minDim := if k = .flagser then some lo else none
  maxDim := match k with
    | .cubical => none
    | .sparse | .cech => some (hi + 1)
    | _ => some hi
  thresh := if k = .cubical then none else some P.maxEdge
  coeff := P.coeff
  precomputed := if k = .rips ∨ k = .weighted ∨ k = .sparse then some P.precomputed else none
  weights := if k = .weighted then some (P.weights, w) else none
  periodic := if k = .cubical ∧ true ∈ P.periodic.getD [] then P.periodic else none
  rest := P.rest

/-- Classes whose engine returns one diagram per dimension. -/
def Kind.diagrams : Kind → Bool
  | .rips | .weighted | .weakAlpha | .flagser => true
  | .sparse | .cech | .cubical => false

/-- `bars q` are the bars that the engine, called with `c`, returns for the sample `y` in dimension `q` (from `lo` to `hi` for flagser, up to `hi` for ripser). Ripser must return at least as many diagrams as asked for; flagser starts with
dimension `lo` and may return any number of diagrams. -/
def EngineBars (E : Env V S A) (k : Kind) (c : Call V A) (lo hi : Nat) (y : S) (bars : Nat → List (Raw V × Raw V)) : Prop :=
  match k with
  | .rips | .weighted | .weakAlpha => ∃ l, E.dgms k c y = .ok l ∧ hi < l.length ∧ ∀ q, q ≤ hi → l[q]? = some (bars q)
  | .flagser => ∃ l, E.dgms k c y = .ok l ∧ ∀ q, lo ≤ q → q ≤ hi → l.getD (q - lo) [] = bars q
  | .sparse | .cech | .cubical => ∃ l, E.pairs k c y = .ok l ∧ ∀ q, (l.filter fun p => decide (p.1 = q)).map Prod.snd = bars q

/-- The bar that reduced homology leaves out in dimension 0 is the last one of a diagram, and the first one of a list of pairs. -/
def leaveOut (k : Kind) (bars : List (Raw V × Raw V)) : List (Raw V × Raw V) := if Kind.diagrams k then bars.dropLast else bars.tail

/-- `R` are the diagrams of the samples `Y`: in every requested dimension, those bars of the engine that are not empty, infinite deaths being replaced by `inf`, followed by points on the diagonal. -/
def Diagrams [LinearOrder V] (E : Env V S A) (k : Kind) (hd : List Nat) (inf : V) (reduced : Bool) (bars : S → Nat → List (Raw V × Raw V)) (Y : List S) (R : List (List (Pt V Nat))) : Prop :=
  R.length = Y.length ∧ ∀ (i : Nat) y D, Y[i]? = some y → R[i]? = some D → (∀ p ∈ D, p.q ∈ hd) ∧ ∀ q ∈ hd, ∃ pads : List (Pt V Nat),
    pointsIn D q = ((reportedBars inf E.zero E.lowest (if q = 0 ∧ reduced = true then leaveOut k (bars y q) else bars y q)).map fun v => ⟨v.1, v.2, q⟩) ++ pads ∧ ∀ p ∈ pads, p.b = p.d

/-- The value that stands for infinite deaths: `infinity_values`, by default the largest filtration value that is considered, or, for images, the largest pixel of the training images. -/
def IsInfinityValue (E : Env V S A) (k : Kind) (P : HParams V A) (X : List S) (v : V) : Prop :=
  match P.inf with
  | some w => v = w
  | none => if k = .cubical then E.largest X = .ok v else v = P.maxEdge

/-- Whether the samples are to be distance or adjacency matrices: depending on the metric, and always for flagser. -/
def wantsMatrices (k : Kind) (P : HParams V A) : Bool := decide (k = .flagser) || (P.precomputed && decide (k = .rips ∨ k = .weighted ∨ k = .sparse))

/-- All tasks are executed, in whatever order. -/
def Covers (order : List Nat) (Y : List S) : Prop := ∀ i, i < Y.length → i ∈ order

/-- The parameters after a sequence of operations: those set last. -/
def hlastSet (P : HParams V A) : List (HOp V S A) → HParams V A
  | [] => P
  | .fit _ :: ops => hlastSet P ops
  | .set P' :: ops => hlastSet P' ops

/-- The parameters which, set before `fit`, have the effect of setting `P'` after a `fit` with parameters `P` that stored the infinity value `v`: the dimensions, the weight parameters and the periodicity of `P`, the
infinity value `v`, and otherwise `P'`. -/
def afterFit (P P' : HParams V A) (v : V) : HParams V A :=
  { P' with dims := P.dims, inf := some v, weightParams := P.weightParams, periodic := P.periodic }

end Gtda.Spec.HomologyObject
