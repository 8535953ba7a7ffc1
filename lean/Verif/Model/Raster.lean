import Verif.Model.Vectorization

set_option autoImplicit false

/-!
# Model of heat kernels and persistence images

`gtda/diagrams/_metrics.py` (`heats`, `persistence_images`), `gtda/diagrams/_utils.py` (`_sample_image`), `HeatKernel.transform`, `PersistenceImage.transform`.
The Gaussian smoothing filter of scipy is a parameter. Images are lists of rows. In-place modifications of the local copy of the subdiagrams are modelled
functionally.
-/

namespace Gtda.Diagrams
open Gtda.Py Gtda.Parallel

/-- The image `f(i, j)`, `i, j < n`. Used in `heatRaster`, gtda/diagrams/_metrics.py:94-96, 104-109. -/
def image2 {α : Type} (n : Nat) (f : Nat → Nat → α) : List (List α) := (List.range n).map fun i => (List.range n).map fun j => f i j

/-- Resolution of an index into an axis of length `n`: negative indices count from the end, `IndexError` outside. Used in `setPixel`, gtda/diagrams/_utils.py:60. -/
def resolveIdx (n : Nat) (i : Int) : PyM Nat :=
  let j := if i < 0 then i + n else i
  if j < 0 ∨ (n : Int) ≤ j then .error .indexError else .ok j.toNat

/-- One assignment `image[i, j] = v` of `image[unique] = counts`, gtda/diagrams/_utils.py:60. -/
def setPixel {K : Type} (n : Nat) (image : List (List K)) (c : Int × Int) (v : K) : PyM (List (List K)) := do
  let i ← resolveIdx n c.1
  let j ← resolveIdx n c.2
  .ok (set2 image i j v)

/-- `_sample_image` on an `n × n` image, gtda/diagrams/_utils.py:55-60; rows of `np.unique` are listed in the order of first occurrence instead of sorted. -/
def sampleImage {K : Type} [NatCast K] (n : Nat) (image : List (List K)) (coords : List (Int × Int)) : PyM (List (List K)) :=
  (coords.dedup.map fun c => (c, coords.count c)).foldlM (fun im cv => setPixel n im cv.1 (cv.2 : K)) image

/-- `np.rot90(m, k=1)` of an `n × n` image: transpose of the left-right flipped image. Used in `heatOne`, gtda/diagrams/_metrics.py:85-115. -/
def rot90 {α : Type} (n : Nat) (m : List (List α)) : List (List α) := transposeN n (m.map List.reverse)

variable {K Q : Type} [Field K] [LinearOrder K] [FloorRing K]

/-- `a[a < first] = first; a[a > last] = last`, gtda/diagrams/_metrics.py:95-96, 138-139. -/
def clipTo (first last x : K) : K :=
  let y := if x < first then first else x
  if y > last then last else y

/-- `np.array((x - first) / step, dtype=int)`: conversion to integers truncates towards zero. Used in `heatRaster`, gtda/diagrams/_metrics.py:94-96, 104-109. -/
def pixel (first step x : K) : Int :=
  let y := (x - first) / step
  if 0 ≤ y then ⌊y⌋ else ⌈y⌉

/-- The loop body of `heats` up to sampling, for one diagram, gtda/diagrams/_metrics.py:94-96, 104-109. -/
def heatRaster (sampling : List K) (step : K) (D : List (Pt K Q)) : PyM (List (List K)) :=
  let first := sampling.headD 0
  let last := sampling.getLastD 0
  let clipped := D.map fun p => (clipTo first last p.b, clipTo first last p.d)
  let nontrivial := clipped.filter fun p => decide (p.2 ≠ p.1)
  let coords := nontrivial.map fun p => (pixel first step p.1, pixel first step p.2)
  sampleImage sampling.length (image2 sampling.length fun _ _ => 0) coords

/-- `heats` for one diagram and a smoothing filter `G`, gtda/diagrams/_metrics.py:85-115. -/
def heatOne (G : List (List K) → List (List K)) (sampling : List K) (step : K) (D : List (Pt K Q)) : PyM (List (List K)) :=
  let n := sampling.length
  if step = 0 then .ok (image2 n fun _ _ => 0)
  else do
    let image ← heatRaster sampling step D
    let h := G image
    let h := List.zipWith (List.zipWith (· - ·)) h (transposeN n h)
    let h := h.map fun r => r.map (· / step ^ 2)
    .ok (rot90 n h)

/-- The loop body of `persistence_images` before smoothing, for one diagram, gtda/diagrams/_metrics.py:130-151. `s₀` and `s₁` are the samplings of births and
lifetimes, `weights` the values of the weight function on `s₁`. -/
def imageRaster (s₀ s₁ : List K) (step₀ step₁ : K) (weights : List K) (D : List (Pt K Q)) : PyM (List (List K)) := do
  let n := s₀.length
  let bp := D.map fun p => (p.b, p.d - p.b)
  let clipped := bp.map fun p => (clipTo (s₀.headD 0) (s₀.getLastD 0) p.1, clipTo (s₁.headD 0) (s₁.getLastD 0) p.2)
  let nontrivial := clipped.filter fun p => decide (p.2 ≠ 0)
  let coords := nontrivial.map fun p => (pixel (s₀.headD 0) step₀ p.1, pixel (s₁.headD 0) step₁ p.2)
  let image ← sampleImage n (image2 n fun _ _ => 0) coords
  .ok (image.map fun r => List.zipWith (· * ·) r weights)

/-- `persistence_images` for one diagram and a smoothing filter `G`, gtda/diagrams/_metrics.py:118-156. -/
def imageOne (G : List (List K) → List (List K)) (s₀ s₁ : List K) (step₀ step₁ : K) (weights : List K) (D : List (Pt K Q)) : PyM (List (List K)) :=
  let n := s₀.length
  if step₀ = 0 ∨ step₁ = 0 then .ok (image2 n fun _ _ => 0)
  else do
    let image ← imageRaster s₀ s₁ step₀ step₁ weights D
    let h := rot90 n (G image)
    .ok (h.map fun r => r.map (· / (step₀ * step₁)))

/-- `HeatKernel.transform` after validation, gtda/diagrams/representations.py:666-674. -/
def heatTransform [DecidableEq Q] (G : List (List K) → List (List K)) (dims : List Q) (sampling : Q → List K) (step : Q → K) (nJobs : Nat)
    (X : List (List (Pt K Q))) : PyM (List (List (List (List K)))) :=
  perDim (fun q Y => Y.mapM (heatOne G (sampling q) (step q))) dims nJobs X

/-- `PersistenceImage.transform` after validation, gtda/diagrams/representations.py:913-927. -/
def imageTransform [DecidableEq Q] (G : List (List K) → List (List K)) (w : K → K) (dims : List Q) (s₀ s₁ : Q → List K) (step₀ step₁ : Q → K) (nJobs : Nat)
    (X : List (List (Pt K Q))) : PyM (List (List (List (List K)))) :=
  perDim (fun q Y => Y.mapM (imageOne G (s₀ q) (s₁ q) (step₀ q) (step₁ q) ((s₁ q).map w))) dims nJobs X

end Gtda.Diagrams
