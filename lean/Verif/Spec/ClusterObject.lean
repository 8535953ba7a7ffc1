import Verif.Model.ClusterObject

/-!
# Specifications for clusterers as objects
-/

set_option autoImplicit false

namespace Gtda.Spec.ClusterObject

open Py Mapper Gtda.ClusterObject

variable {K α : Type}

/-- The parameters after a history: those of the last change, the initial ones if there was none. -/
def lastParams (p : Params K) : List (Op α K) → Params K
  | [] => p
  | .setParams q :: ops => lastParams q ops
  | .fit _ :: ops => lastParams p ops

/-- Parameters within the documented ranges: strings for `linkage` and `affinity`, fractions in (0, 1], a frequency threshold of at least 0 and at least one bin to start with. -/
def ValidParams [Field K] [LinearOrder K] (p : Params K) : Prop :=
  (∃ linkage, p.linkage = some linkage) ∧ (∃ affinity, p.affinity = some affinity) ∧
    ((∃ r f, p.rule = .simple (some r) (some f) ∧ (0 < r ∧ r ≤ 1) ∧ 0 < f ∧ f ≤ 1) ∨ ∃ (thr nStart : Int) (f : K), p.rule = .histogram thr (some f) nStart ∧ 0 ≤ thr ∧ 1 ≤ nStart ∧ 0 < f ∧ f ≤ 1)

/-- The documented meaning of `linkage` and `affinity`: `'ward'` works with Euclidean distances only, the other linkages with any affinity. -/
def treeFor (e : Engine α K) (linkage affinity : String) (X : List α) : PyM (Dendrogram K) :=
  if linkage = "ward" then (if affinity = "euclidean" then e.ward X else .error .valueError)
  else if linkage = "complete" ∨ linkage = "average" ∨ linkage = "single" then e.linkageTree linkage affinity X
  else .error .valueError

/-- What scikit-learn's functions guarantee: the tree of `n` samples has `n` leaves and `n - 1` merges, and it can be cut into at most `n` clusters. -/
def Sound (e : Engine α K) : Prop := ∀ (linkage affinity : String) (X : List α) (t : Dendrogram K), 2 ≤ X.length → treeFor e linkage affinity X = .ok t →
  t.leaves = X.length ∧ t.distances.length + 1 = X.length ∧ ∀ n : Int, n ≤ X.length → ∃ l, e.cut n t = .ok l

/-- The parameters of the clusterer of a `ParallelClustering` object after a history. -/
def lastClusterer {Prm F K W : Type} (p : Prm) : List (ParOp Prm F K W) → Prm
  | [] => p
  | .setClusterer q _ :: ops => lastClusterer q ops
  | .setParams q :: ops => lastClusterer q ops
  | .fitClusterer _ :: ops => lastClusterer p ops
  | .fit _ _ _ _ _ :: ops => lastClusterer p ops

/-- Clusterers return one label per sample. -/
def OneLabelEach {Prm F K W C : Type} (cl : ClusterClass Prm F K W C) : Prop := ∀ p f X w f' l, cl.fit p f X w = .ok (f', l) → l.length = X.length

/-- A clusterer of the class with parameters `p` that was never fitted, as the function of C45 sees it: labels come from one fit with the parameters `p`, weights are used if `fit` of the class takes them. -/
def newClusterer {Prm F K W C : Type} (cl : ClusterClass Prm F K W C) (p : Prm) : Clusterer K W C :=
  ⟨cl.isMixin, cl.metrics p, cl.takesWeights, fun X w => (cl.fit p cl.fresh X w).map Prod.snd⟩

/-- The operation is a fit of the `ParallelClustering` object. -/
def IsFit {Prm F K W : Type} : ParOp Prm F K W → Prop
  | .fit _ _ _ _ _ => True
  | _ => False

end Gtda.Spec.ClusterObject
