import Verif.Model.PerDim
import Mathlib.Analysis.SpecialFunctions.Log.Base
import Mathlib.Analysis.SpecialFunctions.Trigonometric.Basic
import Mathlib.Data.Complex.Basic
import Mathlib.Data.EReal.Basic
import Mathlib.Analysis.Real.Sqrt

set_option autoImplicit false

/-!
# Model of features of persistence diagrams

`gtda/diagrams/features.py` (`PersistenceEntropy`, `NumberOfPoints`, `ComplexPolynomial`; `Amplitude` is in `Model/Distances`), `gtda/diagrams/_features.py`.
Numbers are exact reals; NaN is `none`.
-/

namespace Gtda.Diagrams
open Gtda.Py Gtda.Parallel

variable {K Q : Type}

/-! ### Entropies -/

/-- `scipy.special.entr(x)` for `x ≥ 0` (it is `-inf` for negative arguments, which do not occur for counts and lifetimes). Used in `persistenceEntropyOne`, gtda/diagrams/features.py:95-105. -/
noncomputable def entr (x : ℝ) : ℝ := if 0 < x then -x * Real.log x else 0

/-- `scipy.stats.entropy(w, base=2)`: `w` is divided by its sum (`0 / 0` is NaN); the sum over no entries is zero. Used in `persistenceEntropyOne`, gtda/diagrams/features.py:95-105. -/
noncomputable def scipyEntropy2 (w : List ℝ) : Option ℝ :=
  if w = [] then some 0
  else if w.sum = 0 then none
  else some ((w.map fun x => entr (x / w.sum)).sum / Real.log 2)

/-- Division of floats, up to the sign of zero: NaN, or finite, or infinite. Used in `normalizeEntropy`, gtda/diagrams/features.py:99-101. -/
noncomputable def npDivide (x y : ℝ) : Option EReal :=
  if y ≠ 0 then some ((x / y : ℝ) : EReal) else if x = 0 then none else if 0 < x then some ⊤ else some ⊥

/-- `X_entropy /= np.log2(lifespan_sums)` for one diagram, gtda/diagrams/features.py:99-101. -/
noncomputable def normalizeEntropy (total : ℝ) : Option ℝ → Option EReal
  | none => none
  | some e => npDivide e (Real.logb 2 total)

/-- `np.nan_to_num(x, nan=fill)`, gtda/diagrams/features.py:103; `fmax` is the largest float. -/
noncomputable def nanToNumE (fill fmax : ℝ) : Option EReal → Option EReal
  | none => some (fill : EReal)
  | some x => if x = ⊤ then some (fmax : EReal) else if x = ⊥ then some ((-fmax : ℝ) : EReal) else some x

/-- `_persistence_entropy` for one diagram, gtda/diagrams/features.py:95-105; `fill = none` is `nan_fill_value=None`. -/
noncomputable def persistenceEntropyOne (normalize : Bool) (fill : Option ℝ) (fmax : ℝ) (D : List (Pt ℝ Q)) : Option EReal :=
  let lifespan := D.map fun p => p.d - p.b
  let e := scipyEntropy2 lifespan
  let x := if normalize then normalizeEntropy lifespan.sum e else e.map fun (r : ℝ) => (r : EReal)
  match fill with
  | none => x
  | some f => nanToNumE f fmax x

/-- `PersistenceEntropy.transform` after validation, gtda/diagrams/features.py:174-186. -/
noncomputable def entropyTransform [DecidableEq Q] (normalize : Bool) (fill : Option ℝ) (fmax : ℝ) (dims : List Q) (nJobs : Nat) (X : List (List (Pt ℝ Q))) : PyM (List (List (Option EReal))) :=
  perDim (fun _ Y => .ok (Y.map (persistenceEntropyOne normalize fill fmax))) dims nJobs X

/-! ### Numbers of points -/

/-- `_number_points`, gtda/diagrams/features.py:437-439. -/
def numberPoints [Field K] [DecidableEq K] (Y : List (List (Pt K Q))) : List Nat := Y.map fun D => (D.filter fun p => decide (p.d - p.b ≠ 0)).length

/-- One task of `NumberOfPoints.transform`, gtda/diagrams/features.py:508: here the slice is taken after extracting the subdiagrams. -/
def numberPointsTask [Field K] [DecidableEq K] [DecidableEq Q] (X : List (List (Pt K Q))) (t : Q × (Nat × Nat)) : PyM (List Nat) := do
  let sub ← subdiagrams X [t.1]
  .ok (numberPoints (pySlice (some (t.2.1 : Int)) (some (t.2.2 : Int)) 1 sub))

/-- `NumberOfPoints.transform` after validation, gtda/diagrams/features.py:507-514. -/
def numberPointsTransform [Field K] [DecidableEq K] [DecidableEq Q] (dims : List Q) (nJobs : Nat) (X : List (List (Pt K Q))) : PyM (List (List Nat)) := do
  let parts ← (perDimTasks dims nJobs X.length).mapM (numberPointsTask X)
  let flat ← concatAxis0 parts
  let rows ← reshape2 dims.length X.length flat
  .ok (transposeN X.length rows)

/-! ### Complex polynomials -/

/-- `polynomial_type`. Used in `PolyType.root`, gtda/diagrams/_features.py:40-42. -/
inductive PolyType where
  | R | S | T
  deriving DecidableEq

/-- `np.linalg.norm(Xd, axis=1)` for one point. Used in `rootS`, gtda/diagrams/_features.py:17-27. -/
noncomputable def ptNorm (p : Pt ℝ Q) : ℝ := Real.sqrt (p.b ^ 2 + p.d ^ 2)

/-- `R_polynomial`, gtda/diagrams/_features.py:11-14, for one point. -/
noncomputable def rootR (p : Pt ℝ Q) : ℂ := ⟨p.b, p.d⟩

/-- `S_polynomial`, gtda/diagrams/_features.py:17-27, for one point. -/
noncomputable def rootS (p : Pt ℝ Q) : ℂ :=
  let alpha := if ptNorm p = 0 then 1 else ptNorm p
  (⟨p.b, p.d⟩ : ℂ) * ((p.d - p.b : ℝ) : ℂ) * ((1 / (Real.sqrt 2 * alpha) : ℝ) : ℂ)

/-- `T_polynomial`, gtda/diagrams/_features.py:30-37, for one point. -/
noncomputable def rootT (p : Pt ℝ Q) : ℂ :=
  let alpha := ptNorm p
  (((p.d - p.b) / 2 : ℝ) : ℂ) * ⟨Real.cos alpha - Real.sin alpha, Real.cos alpha + Real.sin alpha⟩

/-- `_implemented_polynomial_recipes`, gtda/diagrams/_features.py:40-42. -/
noncomputable def PolyType.root (t : PolyType) (p : Pt ℝ Q) : ℂ :=
  match t with
  | .R => rootR p
  | .S => rootS p
  | .T => rootT p

/-- `np.convolve(a, [1, -z], mode="full")`. Used in `complexPolynomial`, gtda/diagrams/features.py:669-682. -/
noncomputable def convolve1 (a : List ℂ) (z : ℂ) : List ℂ := List.zipWith (fun x y => x * 1 + y * (-z)) (a ++ [0]) (0 :: a)

open Classical in
/-- `np.poly(roots)`: for an array without entries it returns the number `1.0` (`none` here) instead of an array; if the set of roots is closed under complex conjugation, the
real parts of the coefficients are returned. Used in `complexPolynomial`, gtda/diagrams/features.py:669-682. -/
noncomputable def npPoly (roots : List ℂ) : Option (List ℂ) :=
  if roots = [] then none
  else
    let a := roots.foldl convolve1 [1]
    if roots.Perm (roots.map (starRingEnd ℂ)) then some (a.map fun z => ((z.re : ℝ) : ℂ)) else some a

/-- `_complex_polynomial`, gtda/diagrams/features.py:669-682. Indexing the number `1.0` returned by `np.poly` for no roots raises `TypeError`. -/
noncomputable def complexPolynomial (t : PolyType) (n : Nat) (D : List (Pt ℝ Q)) : PyM (List ℝ) :=
  let roots := (D.filter fun p => decide (p.b ≠ p.d)).map t.root
  match npPoly roots with
  | none => .error .typeError
  | some coefficients =>
    let c := coefficients.drop 1
    let dimension := min n c.length
    .ok (((c.take dimension).map Complex.re ++ List.replicate (n - dimension) 0) ++ ((c.take dimension).map Complex.im ++ List.replicate (n - dimension) 0))

/-- The parameter `n_coefficients`. Used in `fitCoefficients`, gtda/diagrams/features.py:641-662. -/
inductive NCoeff where
  | default
  | int (n : Nat)
  | list (l : List Nat)

/-- `n_coefficients_`, gtda/diagrams/features.py:641-662; `dims` are the homology dimensions of the first diagram `X0`. -/
def fitCoefficients [DecidableEq Q] (p : NCoeff) (dims : List Q) (X0 : List (Pt K Q)) : PyM (List Nat) :=
  match p with
  | .default => .ok (dims.map fun q => (X0.filter fun x => x.q = q).length)
  | .list l => if l.length ≠ dims.length then .error .valueError else .ok l
  | .int n => .ok (List.replicate dims.length n)

/-- One task of `ComplexPolynomial.transform`, gtda/diagrams/features.py:715-717. -/
noncomputable def polynomialTask [DecidableEq Q] (t : PolyType) (x : List (Pt ℝ Q) × (Q × Nat)) : PyM (List ℝ) := do
  let sub ← subdiagrams [x.1] [x.2.1]
  complexPolynomial t x.2.2 (sub.headD [])

/-- `ComplexPolynomial.transform` after validation, gtda/diagrams/features.py:714-723; `reshape(len(X), -1)`. -/
noncomputable def polynomialTransform [DecidableEq Q] (t : PolyType) (dims : List Q) (coeffs : List Nat) (X : List (List (Pt ℝ Q))) : PyM (List (List ℝ)) := do
  let parts ← (X.flatMap fun D => (dims.zip coeffs).map fun qn => (D, qn)).mapM (polynomialTask t)
  let flat ← concatAxis0 parts
  reshape2 X.length (flat.length / X.length) flat

end Gtda.Diagrams
