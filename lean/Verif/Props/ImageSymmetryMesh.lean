import Mathlib.Data.Set.Card
import Verif.Props.ImageSymmetry
import Verif.Props.ImagesMesh
import Verif.Props.ImagesDensity

set_option autoImplicit false
set_option linter.unusedSectionVars false

/-!
# C132, continued: height, radial and density filtrations
-/

namespace Gtda.Props.ImageSymmetry
open Gtda.Py Gtda.Images Gtda.Spec.Images

theorem inner_scale {K : Type} [Field K] (c : K) (u v : List K) : inner u (v.map fun a => c * a) = c * inner u v := by
  induction u generalizing v with
  | nil => simp [inner]
  | cons a u ih =>
    cases v with
    | nil => simp [inner]
    | cons b v => simp only [List.map_cons, inner, ih]; ring

theorem inner_neg {K : Type} [Field K] (u v : List K) : inner u (v.map fun a => -a) = -inner u v := by
  have := inner_scale (-1) u v
  simpa using this

theorem sq_scale (c : ℝ) (v : List ℝ) : ((v.map fun a => c * a).map fun a => a ^ 2).sum = c ^ 2 * (v.map fun a => a ^ 2).sum := by
  induction v with
  | nil => simp
  | cons a v ih => simp only [List.map_cons, List.sum_cons, ih]; ring

/-- What a fitted height filtration computes, in terms of the direction given. -/
theorem height_facts {shape : List Nat} (hs : shape.length = 2 ∨ shape.length = 3) {p₀ : List Nat} (hp₀ : IsPixel shape p₀) {v : List ℝ} (hv : v.length = shape.length ∧ ∃ c ∈ v, c ≠ 0) {f : HeightFitted ℝ}
    (hf : heightFit shape (some v) = .ok f) :
    ∃ c : ℝ, 0 < c ∧ c ^ 2 * (v.map fun a => a ^ 2).sum = 1 ∧ ∃ q₀, IsPixel shape q₀ ∧ (∀ q, IsPixel shape q → inner (coords q₀) v ≤ inner (coords q) v) ∧
      (∀ q, IsPixel shape q → c * (inner (coords q) v - inner (coords q₀) v) + 1 ≤ f.maxValue) ∧ (∃ q, IsPixel shape q ∧ f.maxValue = c * (inner (coords q) v - inner (coords q₀) v) + 1) ∧
      ∀ (nJobs : Nat), 1 ≤ nJobs → ∀ (X : List (Img ℝ)) (i : Nat) (x y : Img ℝ), X[i]? = some x → (heightTransform f nJobs X)[i]? = some y → ∀ p, IsPixel shape p →
        (x p ≠ 0 → y p = c * (inner (coords p) v - inner (coords q₀) v)) ∧ (x p = 0 → y p = f.maxValue) := by
  obtain ⟨f', hf', u, corner, c, hc, hu, hu1, ⟨q₀, hq₀, rfl⟩, hM, ⟨qm, hqm, hm⟩, hval⟩ := C59_height shape hs p₀ hp₀ (some v) (fun w hw => by cases hw; exact hv)
  rw [hf] at hf'
  cases hf'
  have hi : ∀ w : List ℝ, inner w u = c * inner w v := fun w => by rw [hu]; exact inner_scale c w v
  have hd : ∀ q, inner (coords q) u - inner (coords q₀) u = c * (inner (coords q) v - inner (coords q₀) v) := fun q => by rw [hi, hi]; ring
  refine ⟨c, hc, ?_, q₀, hq₀, fun q hq => ?_, fun q hq => ?_, ⟨qm, hqm, by rw [← hd]; exact hm⟩, fun nJobs hn X i x y hx hy p hp => ?_⟩
  · rw [hu] at hu1
    rw [← hu1]
    exact (sq_scale c v).symm
  · have := (hM q hq).1
    rw [hd] at this
    have := nonneg_of_mul_nonneg_right this hc
    linarith
  · have := (hM q hq).2
    rwa [hd] at this
  · obtain ⟨y', hy', h⟩ := hval nJobs hn X i x hx
    rw [hy] at hy'
    cases hy'
    rw [← hd]
    exact h p hp

theorem scale_unique {c c' S : ℝ} (hc : 0 < c) (hc' : 0 < c') (h : c ^ 2 * S = 1) (h' : c' ^ 2 * S = 1) : c = c' := by
  have hS : S ≠ 0 := by
    rintro rfl
    simp at h
  have : c ^ 2 = c' ^ 2 := mul_right_cancel₀ hS (h.trans h'.symm)
  exact (pow_left_inj₀ hc.le hc'.le two_ne_zero).1 this

end Gtda.Props.ImageSymmetry

namespace Gtda.Props
open Gtda.Py Gtda.Images Gtda.Spec.Images Gtda.Props.ImageSymmetry

/-! ### Height -/

/-- **C132, height filtration**: if heights in direction `v'` after the symmetry `g` are heights in direction `v` before it (up to a constant), directions having the same length, then the height filtration of the
transformed image along `v'` is the transformed height filtration along `v`. -/
theorem C132_height (shape shape' : List Nat) (hs : shape.length = 2 ∨ shape.length = 3) (hs' : shape'.length = 2 ∨ shape'.length = 3) (g : List Nat → List Nat)
    (hpix : ∀ p, IsPixel shape p → IsPixel shape' (g p)) (honto : ∀ q, IsPixel shape' q → ∃ p, IsPixel shape p ∧ g p = q)
    (v v' : List ℝ) (hv : v.length = shape.length ∧ ∃ c ∈ v, c ≠ 0) (hv' : v'.length = shape'.length ∧ ∃ c ∈ v', c ≠ 0)
    (hnorm : (v'.map fun a => a ^ 2).sum = (v.map fun a => a ^ 2).sum) (a : ℝ) (ha : ∀ p, IsPixel shape p → inner (coords (g p)) v' = inner (coords p) v + a)
    (f f' : HeightFitted ℝ) (hf : heightFit shape (some v) = .ok f) (hf' : heightFit shape' (some v') = .ok f') (nJobs nJobs' : Nat) (hn : 1 ≤ nJobs) (hn' : 1 ≤ nJobs') (X X' : List (Img ℝ))
    (i i' : Nat) (x x' y y' : Img ℝ) (hi : X[i]? = some x) (hi' : X'[i']? = some x') (hxx : ∀ p, IsPixel shape p → x' (g p) = x p)
    (hy : (heightTransform f nJobs X)[i]? = some y) (hy' : (heightTransform f' nJobs' X')[i']? = some y') (p : List Nat) (hp : IsPixel shape p) : y' (g p) = y p := by
  obtain ⟨c, hc, hc1, q₀, hq₀, hmin, hM, ⟨qm, hqm, hm⟩, hval⟩ := height_facts hs hp hv hf
  obtain ⟨c', hc', hc1', q₀', hq₀', hmin', hM', ⟨qm', hqm', hm'⟩, hval'⟩ := height_facts hs' (hpix p hp) hv' hf'
  rw [hnorm] at hc1'
  have hcc := scale_unique hc hc' hc1 hc1'
  subst hcc
  obtain ⟨r₀, hr₀, rfl⟩ := honto q₀' hq₀'
  obtain ⟨rm, hrm, rfl⟩ := honto qm' hqm'
  have e0 : inner (coords r₀) v = inner (coords q₀) v := by
    have h1 := hmin r₀ hr₀
    have h2 := hmin' (g q₀) (hpix q₀ hq₀)
    rw [ha q₀ hq₀, ha r₀ hr₀] at h2
    linarith
  have hD : ∀ q, IsPixel shape q → inner (coords (g q)) v' - inner (coords (g r₀)) v' = inner (coords q) v - inner (coords q₀) v := by
    intro q hq
    rw [ha q hq, ha r₀ hr₀, e0]
    ring
  have hmax : f'.maxValue = f.maxValue := by
    have h1 := hM rm hrm
    have h2 := hM' (g qm) (hpix qm hqm)
    rw [hD qm hqm] at h2
    rw [hD rm hrm] at hm'
    linarith
  have h1 := hval nJobs hn X i x y hi hy p hp
  have h2 := hval' nJobs' hn' X' i' x' y' hi' hy' (g p) (hpix p hp)
  rw [hD p hp, hxx p hp, hmax] at h2
  by_cases h : x p = 0
  · rw [h1.2 h, h2.2 h]
  · rw [h1.1 h, h2.1 h]

/-- **C132**: reflecting the image along an axis of length at least 1 and reversing the component of the direction that belongs to it. -/
theorem C132_height_flip (shape : List Nat) (hs : shape.length = 2 ∨ shape.length = 3) (k : Nat) (v : List ℝ) (hv : v.length = shape.length) :
    ((v.modify (componentOfAxis k) Neg.neg).map fun a => a ^ 2).sum = (v.map fun a => a ^ 2).sum ∧
      ∃ a : ℝ, ∀ p, IsPixel shape p → inner (coords (flipAxis k shape p)) (v.modify (componentOfAxis k) Neg.neg) = inner (coords p) v + a := by
  have hsub : ∀ {i d : Nat}, i < d → ((d - 1 - i : Nat) : ℝ) = (d : ℝ) - 1 - i := by
    intro i d h
    rw [Nat.cast_sub (by omega), Nat.cast_sub (by omega)]
    simp
  rcases hs with hs | hs
  · obtain ⟨H, W, rfl⟩ := List.length_eq_two.1 hs
    obtain ⟨a, b, rfl⟩ := List.length_eq_two.1 hv
    match k with
    | 0 =>
      refine ⟨by simp [componentOfAxis], -((H : ℝ) - 1) * b, fun p hp => ?_⟩
      cases hp with
      | @cons r _ _ _ h1 t =>
        cases t with
        | @cons c _ _ _ h2 t =>
          cases t
          simp only [flipAxis, componentOfAxis, List.modify_succ_cons, List.modify_zero_cons, coords, inner, List.map_nil, hsub h1]
          ring
    | 1 =>
      refine ⟨by simp [componentOfAxis], -((W : ℝ) - 1) * a, fun p hp => ?_⟩
      cases hp with
      | @cons r _ _ _ h1 t =>
        cases t with
        | @cons c _ _ _ h2 t =>
          cases t
          simp only [flipAxis, componentOfAxis, List.modify_succ_cons, List.modify_zero_cons, coords, inner, List.map_nil, hsub h2]
          ring
    | k + 2 =>
      refine ⟨by simp [componentOfAxis], 0, fun p hp => ?_⟩
      cases hp with
      | @cons r _ _ _ h1 t =>
        cases t with
        | @cons c _ _ _ h2 t =>
          cases t
          simp [flipAxis, componentOfAxis]
  · obtain ⟨H, W, D, rfl⟩ := List.length_eq_three.1 hs
    obtain ⟨a, b, e, rfl⟩ := List.length_eq_three.1 hv
    match k with
    | 0 =>
      refine ⟨by simp [componentOfAxis], -((H : ℝ) - 1) * b, fun p hp => ?_⟩
      cases hp with
      | @cons r _ _ _ h1 t =>
        cases t with
        | @cons c _ _ _ h2 t =>
          cases t with
          | @cons z _ _ _ h3 t =>
            cases t
            simp only [flipAxis, componentOfAxis, List.modify_succ_cons, List.modify_zero_cons, coords, inner, List.map_nil, List.map_cons, hsub h1]
            ring
    | 1 =>
      refine ⟨by simp [componentOfAxis], -((W : ℝ) - 1) * a, fun p hp => ?_⟩
      cases hp with
      | @cons r _ _ _ h1 t =>
        cases t with
        | @cons c _ _ _ h2 t =>
          cases t with
          | @cons z _ _ _ h3 t =>
            cases t
            simp only [flipAxis, componentOfAxis, List.modify_succ_cons, List.modify_zero_cons, coords, inner, List.map_nil, List.map_cons, hsub h2]
            ring
    | 2 =>
      refine ⟨by simp [componentOfAxis], -((D : ℝ) - 1) * e, fun p hp => ?_⟩
      cases hp with
      | @cons r _ _ _ h1 t =>
        cases t with
        | @cons c _ _ _ h2 t =>
          cases t with
          | @cons z _ _ _ h3 t =>
            cases t
            simp only [flipAxis, componentOfAxis, List.modify_succ_cons, List.modify_zero_cons, coords, inner, List.map_nil, List.map_cons, hsub h3]
            ring
    | k + 3 =>
      refine ⟨by simp [componentOfAxis], 0, fun p hp => ?_⟩
      cases hp with
      | @cons r _ _ _ h1 t =>
        cases t with
        | @cons c _ _ _ h2 t =>
          cases t with
          | @cons z _ _ _ h3 t =>
            cases t
            simp [flipAxis, componentOfAxis]

/-- **C132, opposite directions**: the heights of an active pixel in opposite directions add up to the same number for all pixels and images, the extent of the array in that direction; `max_value_` is the same. -/
theorem C132_height_opposite (shape : List Nat) (hs : shape.length = 2 ∨ shape.length = 3) (v : List ℝ) (hv : v.length = shape.length ∧ ∃ c ∈ v, c ≠ 0) (p₀ : List Nat) (hp₀ : IsPixel shape p₀)
    (f f' : HeightFitted ℝ) (hf : heightFit shape (some v) = .ok f) (hf' : heightFit shape (some (v.map fun a => -a)) = .ok f') :
    f'.maxValue = f.maxValue ∧ ∀ (nJobs nJobs' : Nat), 1 ≤ nJobs → 1 ≤ nJobs' → ∀ (X : List (Img ℝ)) (i : Nat) (x y y' : Img ℝ), X[i]? = some x →
      (heightTransform f nJobs X)[i]? = some y → (heightTransform f' nJobs' X)[i]? = some y' → ∀ p, IsPixel shape p → x p ≠ 0 → y p + y' p = f.maxValue - 1 := by
  have hv' : (v.map fun a => -a).length = shape.length ∧ ∃ c ∈ (v.map fun a => -a), c ≠ 0 := by
    obtain ⟨h1, c, h2, h3⟩ := hv
    exact ⟨by simpa using h1, -c, List.mem_map_of_mem h2, neg_ne_zero.2 h3⟩
  obtain ⟨c, hc, hc1, q₀, hq₀, hmin, hM, ⟨qm, hqm, hm⟩, hval⟩ := height_facts hs hp₀ hv hf
  obtain ⟨c', hc', hc1', q₁, hq₁, hmax, hM', ⟨qm', hqm', hm'⟩, hval'⟩ := height_facts hs hp₀ hv' hf'
  have hcc := scale_unique hc hc' hc1 (by simpa [Function.comp_def] using hc1')
  subst hcc
  simp only [inner_neg] at hmax hM' hm' hval'
  have k1 := hM q₁ hq₁
  have k2 := hmax qm hqm
  have k3 : c * (inner (coords qm) v - inner (coords q₀) v) ≤ c * (inner (coords q₁) v - inner (coords q₀) v) := mul_le_mul_of_nonneg_left (by linarith) hc.le
  have k4 := hM' q₀ hq₀
  have k5 := hmin qm' hqm'
  have k6 : c * (- inner (coords qm') v - - inner (coords q₁) v) ≤ c * (- inner (coords q₀) v - - inner (coords q₁) v) := mul_le_mul_of_nonneg_left (by linarith) hc.le
  have hW : f.maxValue = c * (inner (coords q₁) v - inner (coords q₀) v) + 1 := by linarith
  have hW' : f'.maxValue = c * (inner (coords q₁) v - inner (coords q₀) v) + 1 := by linarith
  refine ⟨by rw [hW, hW'], fun nJobs nJobs' hn hn' X i x y y' hx hy hy' p hp hxp => ?_⟩
  rw [(hval nJobs hn X i x y hx hy p hp).1 hxp, (hval' nJobs' hn' X i x y' hx hy' p hp).1 hxp, hW]
  ring

/-- **C132**: the length of the direction does not matter. -/
theorem C132_height_length (shape : List Nat) (v : List ℝ) (t : ℝ) (ht : 0 < t) : heightFit shape (some (v.map fun a => t * a)) = heightFit shape (some v) := by
  have : unitDirection shape.length (some (v.map fun a => t * a)) = unitDirection shape.length (some v) := by
    unfold unitDirection
    simp only [Option.getD_some]
    rw [List.map_map]
    apply List.map_congr_left
    intro a _
    have : Real.sqrt (((v.map fun a => t * a).map fun a => a ^ 2).sum) = t * Real.sqrt ((v.map fun a => a ^ 2).sum) := by
      rw [sq_scale, Real.sqrt_mul (by positivity), Real.sqrt_sq ht.le]
    simp only [Function.comp]
    rw [this, mul_div_mul_left _ _ ht.ne']
  unfold heightFit
  rw [this]

/-! ### Radial -/

section
variable {K : Type} [Field K] [LinearOrder K] [IsStrictOrderedRing K]

/-- **C132, radial filtration**: if `g` carries distances to the centre `c` into distances to the centre `c'`, the radial filtration of the transformed image is the transformed radial filtration. -/
theorem C132_radial (shape shape' : List Nat) (hs : shape.length = 2 ∨ shape.length = 3) (hs' : shape'.length = 2 ∨ shape'.length = 3) (g : List Nat → List Nat)
    (hpix : ∀ p, IsPixel shape p → IsPixel shape' (g p)) (honto : ∀ q, IsPixel shape' q → ∃ p, IsPixel shape p ∧ g p = q) (c c' : List K) (hc : c.length = shape.length)
    (hc' : c'.length = shape'.length) (radius : Option K) (dist : List K → List K → K) (hd : ∀ a b, 0 ≤ dist a b) (hg : ∀ p, IsPixel shape p → dist c' (coords (g p)) = dist c (coords p))
    (f f' : RadialFitted K) (hf : radialFit shape (some c) radius dist = .ok f) (hf' : radialFit shape' (some c') radius dist = .ok f') (nJobs nJobs' : Nat) (hn : 1 ≤ nJobs) (hn' : 1 ≤ nJobs')
    (X X' : List (Img K)) (i i' : Nat) (x x' y y' : Img K) (hi : X[i]? = some x) (hi' : X'[i']? = some x') (hx : IsBinary shape x) (hxx : ∀ p, IsPixel shape p → x' (g p) = x p)
    (hy : (radialTransform f nJobs X)[i]? = some y) (hy' : (radialTransform f' nJobs' X')[i']? = some y') (p : List Nat) (hp : IsPixel shape p) : y' (g p) = y p := by
  have hx' : IsBinary shape' x' := by
    intro q hq
    obtain ⟨p, hp, rfl⟩ := honto q hq
    rw [hxx p hp]
    exact hx p hp
  obtain ⟨f₁, c₁, h1, h2, hlt, hM, hatt, hval⟩ := C60_radial shape hs p hp (some c) (fun w hw => by cases hw; exact hc) radius dist hd
  obtain ⟨f₂, c₂, h1', h2', hlt', hM', hatt', hval'⟩ := C60_radial shape' hs' (g p) (hpix p hp) (some c') (fun w hw => by cases hw; exact hc') radius dist hd
  rw [hf] at h1
  rw [hf'] at h1'
  cases h1
  cases h1'
  rcases h2 with h2 | ⟨h2, _⟩ <;> cases h2
  rcases h2' with h2' | ⟨h2', _⟩ <;> cases h2'
  have hmax : f'.maxValue = f.maxValue := by
    apply le_antisymm
    · rcases hatt' with h | ⟨q, hq, hr, h⟩
      · rw [h]; exact hM
      · obtain ⟨r, hr', rfl⟩ := honto q hq
        rw [hg r hr'] at h hr
        rw [h]
        exact hlt r hr' hr
    · rcases hatt with h | ⟨q, hq, hr, h⟩
      · rw [h]; exact hM'
      · rw [h, ← hg q hq]
        exact hlt' (g q) (hpix q hq) (by rw [hg q hq]; exact hr)
  obtain ⟨z, hz, hz'⟩ := hval nJobs hn X i x hi hx
  obtain ⟨w, hw, hw'⟩ := hval' nJobs' hn' X' i' x' hi' hx'
  rw [hy] at hz
  rw [hy'] at hw
  cases hz
  cases hw
  have k1 := hz' p hp
  have k2 := hw' (g p) (hpix p hp)
  rw [hxx p hp, hg p hp, hmax] at k2
  rcases hx p hp with h | h
  · rw [k1.2.2 h, k2.2.2 h]
  · by_cases hr : ∀ r, radius = some r → dist c (coords p) ≤ r
    · rw [k1.1 h hr, k2.1 h hr]
    · push Not at hr
      obtain ⟨r, h3, h4⟩ := hr
      rw [k1.2.1 h r h3 h4, k2.2.1 h r h3 h4]

/-! ### Density -/

/-- **C132, density filtration**: a bijection of pixels which keeps the distances of the metric carries the density filtration of an image to that of the transformed image. -/
theorem C132_density_symmetry [FloorRing K] (shape shape' : List Nat) (hs : shape.length = 2 ∨ shape.length = 3) (hs' : shape'.length = 2 ∨ shape'.length = 3) (g : List Nat → List Nat)
    (hg : IsPixelBijection shape shape' g) (radius : K) (dist : List K → List K → K) (hd : IsGridMetric dist radius)
    (hiso : ∀ p q, IsPixel shape p → IsPixel shape q → dist (coords3 (g p)) (coords3 (g q)) = dist (coords3 p) (coords3 q)) (f f' : DensityFitted) (hf : densityFit shape radius dist = .ok f)
    (hf' : densityFit shape' radius dist = .ok f') (nJobs nJobs' : Nat) (hn : 1 ≤ nJobs) (hn' : 1 ≤ nJobs') (X X' Y Y' : List (Img K)) (i i' : Nat) (x x' y y' : Img K) (hi : X[i]? = some x)
    (hi' : X'[i']? = some x') (hx : IsBinary shape x) (hxx : ∀ p, IsPixel shape p → x' (g p) = x p) (hY : densityTransform f nJobs shape X = .ok Y) (hY' : densityTransform f' nJobs' shape' X' = .ok Y')
    (hy : Y[i]? = some y) (hy' : Y'[i']? = some y') (p : List Nat) (hp : IsPixel shape p) : y' (g p) = y p := by
  have hx' : IsBinary shape' x' := by
    intro q hq
    obtain ⟨p, hp, rfl⟩ := hg.onto q hq
    rw [hxx p hp]
    exact hx p hp
  have hval : ∀ (shape : List Nat), (shape.length = 2 ∨ shape.length = 3) → ∀ (f : DensityFitted), densityFit shape radius dist = .ok f → ∀ nJobs, 1 ≤ nJobs → ∀ (X Y : List (Img K)) (i : Nat) (x y : Img K),
      X[i]? = some x → IsBinary shape x → densityTransform f nJobs shape X = .ok Y → Y[i]? = some y → ∀ p, IsPixel shape p →
        y p = ({q | IsPixel shape q ∧ x q = 1 ∧ dist (coords3 p) (coords3 q) ≤ radius}.ncard : K) := by
    intro shape hs f hf nJobs hn X Y i x y hi hx hY hy p hp
    obtain ⟨f₁, h1, h2⟩ := C64_density shape hs radius dist hd
    rw [hf] at h1
    cases h1
    obtain ⟨Y₁, h3, _, h4⟩ := h2 nJobs hn X
    rw [hY] at h3
    cases h3
    obtain ⟨y₁, h5, h6⟩ := h4 i x hi hx
    rw [hy] at h5
    cases h5
    exact h6 p hp
  rw [hval shape hs f hf nJobs hn X Y i x y hi hx hY hy p hp, hval shape' hs' f' hf' nJobs' hn' X' Y' i' x' y' hi' hx' hY' hy' (g p) (hg.pixel p hp)]
  have : {q | IsPixel shape' q ∧ x' q = 1 ∧ dist (coords3 (g p)) (coords3 q) ≤ radius} = g '' {q | IsPixel shape q ∧ x q = 1 ∧ dist (coords3 p) (coords3 q) ≤ radius} := by
    ext q
    constructor
    · rintro ⟨h1, h2, h3⟩
      obtain ⟨r, hr, rfl⟩ := hg.onto q h1
      exact ⟨r, ⟨hr, by rw [← hxx r hr]; exact h2, by rw [← hiso p r hp hr]; exact h3⟩, rfl⟩
    · rintro ⟨r, ⟨h1, h2, h3⟩, rfl⟩
      exact ⟨hg.pixel r h1, by rw [hxx r h1]; exact h2, by rw [hiso p r hp h1]; exact h3⟩
  rw [this, Set.InjOn.ncard_image]
  intro a ha b hb hab
  exact hg.injective a b ha.1 hb.1 hab

/-- **C132**: in particular reflections and exchanges of axes are such bijections, for the taxicab metric. -/
theorem C132_density_taxicab (shape shape' : List Nat) (hs : shape.length = 2 ∨ shape.length = 3) (hs' : shape'.length = shape.length) (g : List Nat → List Nat) (hg : IsGridSymmetry shape shape' g) :
    IsPixelBijection shape shape' g ∧ ∀ p q, IsPixel shape p → IsPixel shape q →
      (List.zipWith (fun s t => |s - t|) (coords3 (K := K) (g p)) (coords3 (g q))).sum = (List.zipWith (fun s t => |s - t|) (coords3 (K := K) p) (coords3 q)).sum := by
  have habs : ∀ i j : Nat, |(i : K) - j| = ((i - j + (j - i) : Nat) : K) := by
    intro i j
    rcases le_total i j with h | h
    · rw [Nat.sub_eq_zero_of_le h, zero_add, Nat.cast_sub h, abs_sub_comm, abs_of_nonneg]
      have : (i : K) ≤ j := by exact_mod_cast h
      linarith
    · rw [Nat.sub_eq_zero_of_le h, add_zero, Nat.cast_sub h, abs_of_nonneg]
      have : (j : K) ≤ i := by exact_mod_cast h
      linarith
  have key : ∀ p q : List Nat, p.length = q.length → (p.length = 2 ∨ p.length = 3) → (List.zipWith (fun s t => |s - t|) (coords3 (K := K) p) (coords3 q)).sum = (manhattan p q : K) := by
    intro p q hl h
    rcases h with h | h
    · obtain ⟨a, b, rfl⟩ := List.length_eq_two.1 h
      obtain ⟨c, d, rfl⟩ := List.length_eq_two.1 (hl.symm.trans h)
      simp [coords3, coords, manhattan, habs]
      ring
    · obtain ⟨a, b, e, rfl⟩ := List.length_eq_three.1 h
      obtain ⟨c, d, e', rfl⟩ := List.length_eq_three.1 (hl.symm.trans h)
      simp [coords3, coords, manhattan, habs]
      ring
  have hlen : ∀ p, IsPixel shape p → (g p).length = p.length := fun p hp => by rw [pixel_length hp, pixel_length (hg.pixel p hp), hs']
  refine ⟨⟨hg.pixel, hg.onto, fun p q hp hq h => ?_⟩, fun p q hp hq => ?_⟩
  · refine manhattan_eq_zero (by rw [pixel_length hp, pixel_length hq]) ?_
    rw [← hg.isometry p q hp hq, h, manhattan_self]
  · have hpq : p.length = q.length := by rw [pixel_length hp, pixel_length hq]
    rw [key p q hpq (by rwa [pixel_length hp]), key (g p) (g q) (by rw [hlen p hp, hlen q hq, hpq]) (by rw [hlen p hp, pixel_length hp]; exact hs), hg.isometry p q hp hq]

/-- **C132, density filtration**: densities grow with the image; those of an image and of its complement add up to those of the image with all pixels active. -/
theorem C132_density_images [FloorRing K] (shape : List Nat) (hs : shape.length = 2 ∨ shape.length = 3) (radius : K) (dist : List K → List K → K) (hd : IsGridMetric dist radius) (f : DensityFitted)
    (hf : densityFit shape radius dist = .ok f) (nJobs : Nat) (hn : 1 ≤ nJobs) (X Y : List (Img K)) (hY : densityTransform f nJobs shape X = .ok Y) (i j l : Nat) (x x' x₁ y y' y₁ : Img K)
    (hi : X[i]? = some x) (hj : X[j]? = some x') (hl : X[l]? = some x₁) (hyi : Y[i]? = some y) (hyj : Y[j]? = some y') (hyl : Y[l]? = some y₁) (hx : IsBinary shape x) (hx' : IsBinary shape x') :
    ((∀ p, IsPixel shape p → x p ≤ x' p) → ∀ p, IsPixel shape p → y p ≤ y' p) ∧
    ((∀ p, IsPixel shape p → x' p = 1 - x p) → (∀ p, IsPixel shape p → x₁ p = 1) → ∀ p, IsPixel shape p → y p + y' p = y₁ p) := by
  have hfin : ∀ P : List Nat → Prop, {q | IsPixel shape q ∧ P q}.Finite := fun P => (List.finite_toSet (inds shape)).subset fun q hq => (mem_inds q shape).2 hq.1
  have hval : ∀ (i : Nat) (x y : Img K), X[i]? = some x → Y[i]? = some y → IsBinary shape x → ∀ p, IsPixel shape p →
      y p = ({q | IsPixel shape q ∧ x q = 1 ∧ dist (coords3 p) (coords3 q) ≤ radius}.ncard : K) := by
    intro i x y hi hy hx p hp
    obtain ⟨f₁, h1, h2⟩ := C64_density shape hs radius dist hd
    rw [hf] at h1
    cases h1
    obtain ⟨Y₁, h3, _, h4⟩ := h2 nJobs hn X
    rw [hY] at h3
    cases h3
    obtain ⟨y₁, h5, h6⟩ := h4 i x hi hx
    rw [hy] at h5
    cases h5
    exact h6 p hp
  refine ⟨fun hle p hp => ?_, fun hc h1 p hp => ?_⟩
  · rw [hval i x y hi hyi hx p hp, hval j x' y' hj hyj hx' p hp, Nat.cast_le]
    refine Set.ncard_le_ncard (fun q hq => ⟨hq.1, ?_, hq.2.2⟩) (hfin _)
    have h := hle q hq.1
    rw [hq.2.1] at h
    rcases hx' q hq.1 with h' | h'
    · rw [h'] at h
      exact absurd h (by norm_num)
    · exact h'
  · rw [hval i x y hi hyi hx p hp, hval j x' y' hj hyj hx' p hp, hval l x₁ y₁ hl hyl (fun q hq => .inr (h1 q hq)) p hp, ← Nat.cast_add, ← Set.ncard_union_eq _ (hfin _) (hfin _)]
    · congr 2
      ext q
      constructor
      · rintro (h | h)
        · exact ⟨h.1, h1 q h.1, h.2.2⟩
        · exact ⟨h.1, h1 q h.1, h.2.2⟩
      · rintro ⟨h2, _, h4⟩
        rcases hx q h2 with h | h
        · exact .inr ⟨h2, by rw [hc q h2, h]; norm_num, h4⟩
        · exact .inl ⟨h2, h, h4⟩
    · rw [Set.disjoint_left]
      rintro q ⟨h2, h3, _⟩ ⟨_, h4, _⟩
      rw [hc q h2, h3] at h4
      norm_num at h4

/-- **C132**: densities grow with the radius. -/
theorem C132_density_radius [FloorRing K] (shape : List Nat) (hs : shape.length = 2 ∨ shape.length = 3) (r r' : K) (hrr : r ≤ r') (dist : List K → List K → K) (hd : IsGridMetric dist r)
    (hd' : IsGridMetric dist r') (f f' : DensityFitted) (hf : densityFit shape r dist = .ok f) (hf' : densityFit shape r' dist = .ok f') (nJobs : Nat) (hn : 1 ≤ nJobs) (X Y Y' : List (Img K))
    (hY : densityTransform f nJobs shape X = .ok Y) (hY' : densityTransform f' nJobs shape X = .ok Y') (i : Nat) (x y y' : Img K) (hi : X[i]? = some x) (hx : IsBinary shape x) (hy : Y[i]? = some y)
    (hy' : Y'[i]? = some y') (p : List Nat) (hp : IsPixel shape p) : y p ≤ y' p := by
  have hfin : ∀ P : List Nat → Prop, {q | IsPixel shape q ∧ P q}.Finite := fun P => (List.finite_toSet (inds shape)).subset fun q hq => (mem_inds q shape).2 hq.1
  have hval : ∀ (radius : K), IsGridMetric dist radius → ∀ (f : DensityFitted), densityFit shape radius dist = .ok f → ∀ (Y : List (Img K)) (y : Img K), densityTransform f nJobs shape X = .ok Y → Y[i]? = some y →
      y p = ({q | IsPixel shape q ∧ x q = 1 ∧ dist (coords3 p) (coords3 q) ≤ radius}.ncard : K) := by
    intro radius hd f hf Y y hY hy
    obtain ⟨f₁, h1, h2⟩ := C64_density shape hs radius dist hd
    rw [hf] at h1
    cases h1
    obtain ⟨Y₁, h3, _, h4⟩ := h2 nJobs hn X
    rw [hY] at h3
    cases h3
    obtain ⟨y₁, h5, h6⟩ := h4 i x hi hx
    rw [hy] at h5
    cases h5
    exact h6 p hp
  rw [hval r hd f hf Y y hY hy, hval r' hd' f' hf' Y' y' hY' hy', Nat.cast_le]
  exact Set.ncard_le_ncard (fun q hq => ⟨hq.1, hq.2.1, hq.2.2.trans hrr⟩) (hfin _)

end

/-! ### Examples -/

/-- A reflection of a 3×4 image: the filtrations are reflected. -/
example : let x : Img ℚ := fun p => if p = [0, 0] ∨ p = [1, 3] then 1 else 0
    let x' : Img ℚ := fun p => if p = [0, 3] ∨ p = [1, 0] then 1 else 0
    (inds [3, 4]).all (fun p => decide (x' (flipAxis 1 [3, 4] p) = x p)) = true ∧
    (dilationTransform ⟨7, 7⟩ 1 [3, 4] [x, x']).map (fun y => (y [2, 1], y [2, 2])) = [(3, 2), (2, 3)] := by
  refine ⟨?_, ?_⟩ <;> decide +kernel

/-- An exchange of axes of a 2×3 image. -/
example : IsGridSymmetry [2, 3] [3, 2] (swapNext 0) ∧ ([3, 2] : List Nat).sum = ([2, 3] : List Nat).sum := ⟨(C132_symmetries [2, 3] 0).2.1, rfl⟩

/-- Signed distances of an image and its complement. -/
example : let x : Img ℚ := fun p => if p = [0, 0] then 1 else 0
    let x' : Img ℚ := fun p => if p = [0, 0] then 0 else 1
    (signedDistanceTransform ⟨2, 5⟩ 1 [2, 3] [x, x']).map (fun y => (y [0, 0], y [1, 1], y [1, 2])) = [(0, -2, -5), (-1, 1, 5)] := by decide +kernel

/-- Heights in direction (1, 2) and, after a reflection along the second axis, (-1, 2): both can be fitted, and the hypotheses hold. -/
example : ∃ f f' : HeightFitted ℝ, heightFit [2, 3] (some [1, 2]) = .ok f ∧ heightFit [2, 3] (some [-1, 2]) = .ok f' ∧ (([1, 2] : List ℝ).modify (componentOfAxis 1) Neg.neg) = [-1, 2] := by
  have hp : IsPixel [2, 3] [0, 0] := .cons (by decide) (.cons (by decide) .nil)
  obtain ⟨f, hf, _⟩ := C59_height [2, 3] (.inl rfl) [0, 0] hp (some [1, 2]) (fun v hv => by cases hv; exact ⟨rfl, 1, by simp, one_ne_zero⟩)
  obtain ⟨f', hf', _⟩ := C59_height [2, 3] (.inl rfl) [0, 0] hp (some [-1, 2]) (fun v hv => by cases hv; exact ⟨rfl, 2, by simp, two_ne_zero⟩)
  exact ⟨f, f', hf, hf', rfl⟩

/-- Radial filtrations of a 2×3 image and its reflection, with centres (0, 0) and (2, 0) and the taxicab metric. -/
example : (inds [2, 3]).all (fun p => decide (taxicab [2, 0] (coords (flipAxis 1 [2, 3] p)) = taxicab [0, 0] (coords p))) = true ∧
    (radialFit [2, 3] (some [0, 0]) (some 2) taxicab).map (fun f => (f.maxValue, (radialTransform f 1 [fun p => if p = [1, 2] then 0 else 1]).map (fun y => y [1, 1]))) = .ok (3, [2]) ∧
    (radialFit [2, 3] (some [2, 0]) (some 2) taxicab).map (fun f => (f.maxValue, (radialTransform f 1 [fun p => if p = [1, 0] then 0 else 1]).map (fun y => y [1, 1]))) = .ok (3, [2]) := by
  refine ⟨?_, ?_, ?_⟩ <;> decide +kernel

end Gtda.Props
