import Mathlib.Tactic.Linarith
import Mathlib.Tactic.NormNum
import Mathlib.Tactic.Ring
import Mathlib.Analysis.Real.Sqrt
import Verif.Props.ImagesPre

set_option autoImplicit false
set_option linter.unusedSectionVars false

/-!
# C59, C60: height and radial filtrations
-/

namespace Gtda.Images
open Gtda.Py Gtda.Parallel Gtda.Spec.Images

variable {K : Type} [Field K] [LinearOrder K] [IsStrictOrderedRing K]

/-! ### Ranges -/

/-- One of the ranges of the height mesh. -/
def heightRange (u : K) (d : Nat) : List K := if 0 ≤ u then arange d else (arange d).reverse.map fun (t : K) => -t

/-- The coordinate at which the scalar product with `u` is smallest. -/
def low (u : K) (d : Nat) : Nat := if 0 ≤ u then 0 else d - 1

theorem arange_getD {d i : Nat} (h : i < d) : (arange (K := K) d).getD i 0 = i := by
  simp [arange, List.getD, h]

theorem heightRange_getD {u : K} {d i : Nat} (h : i < d) : (heightRange u d).getD i 0 = (i : K) - (low u d : K) := by
  unfold heightRange low
  split
  · rw [arange_getD h]; simp
  · have hl : i < ((arange (K := K) d).reverse.map fun (t : K) => -t).length := by simpa [arange] using h
    rw [List.getD_eq_getElem?_getD, List.getElem?_eq_getElem hl, Option.getD_some]
    simp only [List.getElem_map, List.getElem_reverse, arange, List.length_map, List.length_range, List.getElem_range]
    have h1 : d - 1 - i + i = d - 1 := by omega
    have h2 : ((d - 1 - i : Nat) : K) + (i : K) = ((d - 1 : Nat) : K) := by exact_mod_cast h1
    linarith

theorem low_lt {u : K} {d i : Nat} (h : i < d) : low u d < d := by
  unfold low
  split <;> omega

theorem low_min {u : K} {d i : Nat} (h : i < d) : (low u d : K) * u ≤ (i : K) * u := by
  unfold low
  split
  · rename_i hu
    simp only [Nat.cast_zero, zero_mul]
    exact mul_nonneg (Nat.cast_nonneg i) hu
  · rename_i hu
    have : (i : K) ≤ ((d - 1 : Nat) : K) := by exact_mod_cast (show i ≤ d - 1 by omega)
    exact mul_le_mul_of_nonpos_right this (not_le.1 hu).le

/-! ### Height -/

/-- What a height filtration fitted with the (normalised) direction `u` computes. -/
def HeightSpec (shape : List Nat) (u : List K) (f : HeightFitted K) : Prop :=
  ∃ corner, IsPixel shape corner ∧
    (∀ q, IsPixel shape q → inner (coords corner) u ≤ inner (coords q) u) ∧
    (∀ q, IsPixel shape q → inner (coords q) u - inner (coords corner) u + 1 ≤ f.maxValue) ∧
    (∃ q, IsPixel shape q ∧ f.maxValue = inner (coords q) u - inner (coords corner) u + 1) ∧
    ∀ (x : Img K) p, IsPixel shape p →
      calcHeight f.direction f.mesh f.maxValue x p = if x p ≠ 0 then inner (coords p) u - inner (coords corner) u else f.maxValue

theorem heightFit_of_mesh {shape : List Nat} {u : List K} {ranges : List (List K)} (hr : heightRanges shape u = .ok ranges)
    (hl : u.length = shape.length) (corner : Idx) (hc : IsPixel shape corner)
    (hmin : ∀ q, IsPixel shape q → inner (coords corner) u ≤ inner (coords q) u)
    (hm : ∀ p, IsPixel shape p → dot (meshgridXY ranges p) u = inner (coords p) u - inner (coords corner) u) :
    ∃ f, heightFitDir shape u = .ok f ∧ HeightSpec shape u f := by
  have hne : pixels shape [calcHeight u (meshgridXY ranges) 0 (fun _ => 1)] ≠ [] :=
    List.ne_nil_of_mem (mem_pixels.2 ⟨_, List.mem_singleton_self _, corner, hc, rfl⟩)
  obtain ⟨m, h1, h2⟩ := Gtda.Props.npMax_spec _ hne
  refine ⟨⟨u, meshgridXY ranges, m + 1⟩, ?_, corner, hc, hmin, ?_, ?_, ?_⟩
  · unfold heightFitDir
    rw [hr]
    change (if u.length ≠ shape.length then _ else _) = _
    rw [if_neg (by simpa using hl)]
    change (Gtda.Diagrams.npMax _ >>= fun m => _) = _
    rw [h1]
    rfl
  · intro q hq
    have := h2.2 (mem_pixels.2 ⟨_, List.mem_singleton_self _, q, hq, rfl⟩)
    unfold calcHeight at this
    rw [if_pos one_ne_zero, hm q hq] at this
    change _ ≤ m + 1
    linarith
  · obtain ⟨_, hx, q, hq, hqm⟩ := mem_pixels.1 h2.1
    cases List.mem_singleton.1 hx
    refine ⟨q, hq, ?_⟩
    unfold calcHeight at hqm
    rw [if_pos one_ne_zero, hm q hq] at hqm
    rw [hqm]
  · intro x p hp
    unfold calcHeight
    rw [hm p hp]

theorem height_core (shape : List Nat) (hs : shape.length = 2 ∨ shape.length = 3) (u : List K) (hl : u.length = shape.length)
    (p₀ : Idx) (hp₀ : IsPixel shape p₀) : ∃ f, heightFitDir shape u = .ok f ∧ HeightSpec shape u f := by
  rcases hs with hs | hs
  · obtain ⟨H, W, rfl⟩ := List.length_eq_two.1 hs
    obtain ⟨a, b, rfl⟩ := List.length_eq_two.1 hl
    obtain ⟨r₀, c₀, rfl⟩ := List.length_eq_two.1 (pixel_length hp₀)
    have hr0 : r₀ < H := by cases hp₀; assumption
    have hc0 : c₀ < W := by cases hp₀ with | cons _ t => cases t; assumption
    have hr : heightRanges [H, W] [a, b] = .ok [heightRange a W, heightRange b H] := rfl
    refine heightFit_of_mesh hr rfl [low b H, low a W] (.cons (low_lt hr0) (.cons (low_lt hc0) .nil)) ?_ ?_
    · intro q hq
      cases hq with
      | @cons r _ _ _ h1 t =>
        cases t with
        | @cons c _ _ _ h2 t =>
          cases t
          simp only [coords, inner, List.map_nil]
          have e1 := low_min (u := a) h2
          have e2 := low_min (u := b) h1
          linarith
    · intro q hq
      cases hq with
      | @cons r _ _ _ h1 t =>
        cases t with
        | @cons c _ _ _ h2 t =>
          cases t
          simp only [meshgridXY, List.mapIdx_cons, List.mapIdx_nil, dot, coords, inner, List.map_nil, List.zipWith_cons_cons,
            List.zipWith_nil_left, List.sum_cons, List.sum_nil]
          change (heightRange a W).getD c 0 * a + ((heightRange b H).getD r 0 * b + 0) = _
          rw [heightRange_getD h2, heightRange_getD h1]
          ring
  · obtain ⟨H, W, D, rfl⟩ := List.length_eq_three.1 hs
    obtain ⟨a, b, e, rfl⟩ := List.length_eq_three.1 hl
    obtain ⟨r₀, c₀, z₀, rfl⟩ := List.length_eq_three.1 (pixel_length hp₀)
    have hr0 : r₀ < H := by cases hp₀; assumption
    have hc0 : c₀ < W := by cases hp₀ with | cons _ t => cases t; assumption
    have hz0 : z₀ < D := by cases hp₀ with | cons _ t => cases t with | cons _ t => cases t; assumption
    have hr : heightRanges [H, W, D] [a, b, e] = .ok [heightRange a W, heightRange b H, heightRange e D] := rfl
    refine heightFit_of_mesh hr rfl [low b H, low a W, low e D] (.cons (low_lt hr0) (.cons (low_lt hc0) (.cons (low_lt hz0) .nil))) ?_ ?_
    · intro q hq
      cases hq with
      | @cons r _ _ _ h1 t =>
        cases t with
        | @cons c _ _ _ h2 t =>
          cases t with
          | @cons z _ _ _ h3 t =>
            cases t
            simp only [coords, inner, List.map_nil, List.map_cons]
            have e1 := low_min (u := a) h2
            have e2 := low_min (u := b) h1
            have e3 := low_min (u := e) h3
            linarith
    · intro q hq
      cases hq with
      | @cons r _ _ _ h1 t =>
        cases t with
        | @cons c _ _ _ h2 t =>
          cases t with
          | @cons z _ _ _ h3 t =>
            cases t
            simp only [meshgridXY, List.mapIdx_cons, List.mapIdx_nil, dot, coords, inner, List.map_nil, List.map_cons, List.zipWith_cons_cons,
              List.zipWith_nil_left, List.sum_cons, List.sum_nil]
            change (heightRange a W).getD c 0 * a + ((heightRange b H).getD r 0 * b + ((heightRange e D).getD z 0 * e + 0)) = _
            rw [heightRange_getD h2, heightRange_getD h1, heightRange_getD h3]
            ring

theorem sum_sq_pos (v : List ℝ) (c : ℝ) (hc : c ∈ v) (h0 : c ≠ 0) : 0 < (v.map fun a => a ^ 2).sum := by
  have h1 : c ^ 2 ≤ (v.map fun a => a ^ 2).sum :=
    List.single_le_sum (by intro y hy; obtain ⟨a, _, rfl⟩ := List.mem_map.1 hy; positivity) _ (List.mem_map_of_mem hc)
  have : 0 < c ^ 2 := by positivity
  linarith

/-- **C59** HeightFiltration on 2D or 3D images with a direction that is not the zero vector (the default is the diagonal): `fit` succeeds; with `u` the unit vector
of the direction and `corner` a pixel that comes first in direction `u`, every active pixel `p` of every image of a transformed collection gets the signed distance
`⟨p - corner, u⟩ ≥ 0` to the hyperplane through `corner` normal to `u`, every other pixel gets `max_value_`, and `max_value_` exceeds the greatest such height of a pixel of
that shape by 1. -/
theorem C59_height (shape : List Nat) (hs : shape.length = 2 ∨ shape.length = 3) (p₀ : Idx) (hp₀ : IsPixel shape p₀) (direction : Option (List ℝ))
    (hdir : ∀ v, direction = some v → v.length = shape.length ∧ ∃ c ∈ v, c ≠ 0) :
    ∃ f, heightFit shape direction = .ok f ∧
      ∃ u corner : List ℝ, ∃ c : ℝ, 0 < c ∧ u = (direction.getD (List.replicate shape.length 1)).map (fun a => c * a) ∧ (u.map fun a => a ^ 2).sum = 1 ∧
        (∃ q₀, IsPixel shape q₀ ∧ corner = coords q₀) ∧
        (∀ q, IsPixel shape q → 0 ≤ inner (coords q) u - inner corner u ∧ inner (coords q) u - inner corner u + 1 ≤ f.maxValue) ∧
        (∃ q, IsPixel shape q ∧ f.maxValue = inner (coords q) u - inner corner u + 1) ∧
        ∀ (nJobs : Nat), 1 ≤ nJobs → ∀ (X : List (Img ℝ)) (i : Nat) (x : Img ℝ), X[i]? = some x →
          ∃ y, (heightTransform f nJobs X)[i]? = some y ∧ ∀ p, IsPixel shape p →
            (x p ≠ 0 → y p = inner (coords p) u - inner corner u) ∧ (x p = 0 → y p = f.maxValue) := by
  set v := direction.getD (List.replicate shape.length 1) with hv
  have hvl : v.length = shape.length ∧ ∃ c ∈ v, c ≠ 0 := by
    cases hd : direction with
    | some w => simpa [hv, hd] using hdir w hd
    | none =>
      simp only [hv, hd, Option.getD_none, List.length_replicate, true_and]
      exact ⟨1, List.mem_replicate.2 ⟨by omega, rfl⟩, one_ne_zero⟩
  obtain ⟨hl, c₀, hc₀, hne⟩ := hvl
  have hpos := sum_sq_pos v c₀ hc₀ hne
  set S := (v.map fun a => a ^ 2).sum with hS
  have hsq : 0 < Real.sqrt S := Real.sqrt_pos.2 hpos
  have hu : unitDirection shape.length direction = v.map fun a => (Real.sqrt S)⁻¹ * a := by
    unfold unitDirection
    apply List.map_congr_left
    intro a _
    rw [div_eq_inv_mul]
  obtain ⟨f, h1, corner, hcp, hmin, hmax, hatt, hval⟩ := height_core shape hs (unitDirection shape.length direction) (by simp [hu, hl]) p₀ hp₀
  refine ⟨f, ?_, unitDirection shape.length direction, coords corner, (Real.sqrt S)⁻¹, inv_pos.2 hsq, hu, ?_, ⟨corner, hcp, rfl⟩, ?_, hatt, ?_⟩
  · unfold heightFit
    rw [checkDims_ok (by omega)]
    exact h1
  · rw [hu, List.map_map]
    have : ((fun a : ℝ => a ^ 2) ∘ fun a => (Real.sqrt S)⁻¹ * a) = fun a => (Real.sqrt S)⁻¹ ^ 2 * a ^ 2 := by
      funext a
      simp [mul_pow]
    rw [this, List.sum_map_mul_left, ← hS, inv_pow, Real.sq_sqrt hpos.le]
    exact inv_mul_cancel₀ hpos.ne'
  · intro q hq
    exact ⟨by have := hmin q hq; linarith, hmax q hq⟩
  · intro nJobs hn X i x hi
    unfold heightTransform
    rw [Gtda.Props.C17_njobs_map _ nJobs hn, List.getElem?_map, hi]
    refine ⟨_, rfl, ?_⟩
    intro p hp
    rw [hval x p hp]
    exact ⟨fun h => if_pos h, fun h => if_neg (by simpa using h)⟩

/-- One-dimensional images are not supported: `fit` raises `IndexError` (there is no axis 2). -/
theorem C59_one_dimensional (d : Nat) (direction : Option (List ℝ)) : heightFit [d] direction = .error .indexError := by
  unfold heightFit heightFitDir
  have : heightRanges [d] (unitDirection [d].length direction) = .error .indexError := by
    unfold heightRanges
    change (List.mapM _ [(1, 0)]) = _
    rw [List.mapM_cons]
    cases h : (unitDirection [d].length direction)[0]? <;> simp [h] <;> rfl
  rw [this]
  rfl

/-- The height of a 2×3 image along the direction "left and down": pixel `(0, 2)` (top right) comes first horizontally. -/
example : (heightFitDir (K := ℚ) [2, 3] [-1, 1]).map (fun f => (f.maxValue,
    (heightTransform f 2 [fun _ => 1, fun p => if p = [0, 2] then 0 else 1]).map fun y => (y [0, 2], y [0, 0], y [1, 1]))) =
    .ok (4, [(0, 2, 2), (4, 2, 2)]) := by decide +kernel

/-! ### Radial -/

/-- The value that `_calculate_radial` gives to a pixel of a binary image. -/
theorem calcRadial_value {mesh : Idx → XNum K} {maxValue : K} {x : Img K} {p : Idx} (hx : x p = 0 ∨ x p = 1) :
    (∀ v, mesh p = .fin v → 0 ≤ v → x p = 1 → calcRadial mesh maxValue x p = v) ∧
    (mesh p = .inf → calcRadial mesh maxValue x p = maxValue) ∧ (x p = 0 → calcRadial mesh maxValue x p = maxValue) := by
  unfold calcRadial
  refine ⟨?_, ?_, ?_⟩
  · intro v hv h0 h1
    have : v ≠ -1 := by intro h; rw [h] at h0; linarith
    simp [hv, h1, XNum.mulPixel, XNum.nanToInf, XNum.infToMinusOne, this]
  · intro h
    rcases hx with h0 | h1
    · simp [h, h0, XNum.mulPixel, XNum.nanToInf, XNum.infToMinusOne]
    · simp [h, h1, XNum.mulPixel, XNum.nanToInf, XNum.infToMinusOne]
  · intro h0
    simp [h0]

theorem radialMesh (shape : List Nat) (hs : shape.length = 2 ∨ shape.length = 3) : ∃ ranges, radialRanges (K := K) shape = .ok ranges ∧
    ∀ p, IsPixel shape p → meshgridXY ranges p = coords p := by
  rcases hs with hs | hs
  · obtain ⟨H, W, rfl⟩ := List.length_eq_two.1 hs
    refine ⟨[arange W, arange H], rfl, ?_⟩
    intro p hp
    cases hp with
    | @cons r _ _ _ h1 t =>
      cases t with
      | @cons c _ _ _ h2 t =>
        cases t
        change [(arange (K := K) W).getD c 0, (arange (K := K) H).getD r 0] = _
        rw [arange_getD h2, arange_getD h1]
        rfl
  · obtain ⟨H, W, D, rfl⟩ := List.length_eq_three.1 hs
    refine ⟨[arange W, arange H, arange D], rfl, ?_⟩
    intro p hp
    cases hp with
    | @cons r _ _ _ h1 t =>
      cases t with
      | @cons c _ _ _ h2 t =>
        cases t with
        | @cons z _ _ _ h3 t =>
          cases t
          change [(arange (K := K) W).getD c 0, (arange (K := K) H).getD r 0, (arange (K := K) D).getD z 0] = _
          rw [arange_getD h2, arange_getD h1, arange_getD h3]
          rfl

/-- **C60** RadialFiltration on 2D or 3D binary images, any centre with one coordinate per dimension (the origin by default), any radius (`none`: infinite) and any
non-negative dissimilarity: `fit` succeeds; an active pixel whose distance to the centre is at most `radius` gets that distance, every other pixel gets `max_value_`, and
`max_value_` exceeds the greatest of these distances by 1 (and is 1 if there are none). -/
theorem C60_radial (shape : List Nat) (hs : shape.length = 2 ∨ shape.length = 3) (p₀ : Idx) (hp₀ : IsPixel shape p₀) (center : Option (List K))
    (hc : ∀ v, center = some v → v.length = shape.length) (radius : Option K) (dist : List K → List K → K) (hd : ∀ a b, 0 ≤ dist a b) :
    ∃ f c, radialFit shape center radius dist = .ok f ∧ (center = some c ∨ (center = none ∧ c = List.replicate shape.length 0)) ∧
      (∀ p, IsPixel shape p → (∀ r, radius = some r → dist c (coords p) ≤ r) → dist c (coords p) + 1 ≤ f.maxValue) ∧ 1 ≤ f.maxValue ∧
      (f.maxValue = 1 ∨ ∃ p, IsPixel shape p ∧ (∀ r, radius = some r → dist c (coords p) ≤ r) ∧ f.maxValue = dist c (coords p) + 1) ∧
      ∀ (nJobs : Nat), 1 ≤ nJobs → ∀ (X : List (Img K)) (i : Nat) (x : Img K), X[i]? = some x → IsBinary shape x →
        ∃ y, (radialTransform f nJobs X)[i]? = some y ∧ ∀ p, IsPixel shape p →
          (x p = 1 → (∀ r, radius = some r → dist c (coords p) ≤ r) → y p = dist c (coords p)) ∧
          (x p = 1 → ∀ r, radius = some r → r < dist c (coords p) → y p = f.maxValue) ∧
          (x p = 0 → y p = f.maxValue) := by
  obtain ⟨ranges, hr, hmesh⟩ := radialMesh (K := K) shape hs
  set c := center.getD (List.replicate shape.length 0) with hcdef
  have hcl : c.length = shape.length := by
    cases h : center with
    | none => simp [hcdef, h]
    | some v => simpa [hcdef, h] using hc v h
  set mesh : Idx → XNum K := fun p =>
    let v := dist c (meshgridXY ranges p)
    match radius with
    | none => .fin v
    | some r => if r < v then .inf else .fin v with hm
  have hin : ∀ p, IsPixel shape p → (∀ r, radius = some r → dist c (coords p) ≤ r) → mesh p = .fin (dist c (coords p)) := by
    intro p hp h
    simp only [hm, hmesh p hp]
    cases radius with
    | none => rfl
    | some r => simp [not_lt.2 (h r rfl)]
  have hout : ∀ p, IsPixel shape p → ∀ r, radius = some r → r < dist c (coords p) → mesh p = .inf := by
    intro p hp r hr h
    subst hr
    simp [hm, hmesh p hp, h]
  obtain ⟨m, h1, h2⟩ := Gtda.Props.npMax_spec (pixels shape [calcRadial mesh 0 (fun _ => 1)])
    (List.ne_nil_of_mem (mem_pixels.2 ⟨_, List.mem_singleton_self _, p₀, hp₀, rfl⟩))
  have hge : ∀ p, IsPixel shape p → calcRadial mesh 0 (fun _ => 1) p ≤ m := fun p hp =>
    h2.2 (mem_pixels.2 ⟨_, List.mem_singleton_self _, p, hp, rfl⟩)
  refine ⟨⟨mesh, m + 1⟩, c, ?_, ?_, ?_, ?_, ?_, ?_⟩
  · unfold radialFit
    rw [checkDims_ok (by omega), hr]
    change (if c.length ≠ shape.length then _ else _) = _
    rw [if_neg (by simpa using hcl)]
    change (Gtda.Diagrams.npMax (pixels shape [calcRadial mesh 0 (fun _ => 1)]) >>= fun m => _) = _
    rw [h1]
    rfl
  · cases h : center with
    | none => right; simp [hcdef, h]
    | some v => left; simp [hcdef, h]
  · intro p hp h
    have h3 := hge p hp
    rw [(calcRadial_value (Or.inr rfl)).1 _ (hin p hp h) (hd _ _) rfl] at h3
    change _ ≤ m + 1
    linarith
  · have h3 := hge p₀ hp₀
    change 1 ≤ m + 1
    by_cases h : ∀ r, radius = some r → dist c (coords p₀) ≤ r
    · rw [(calcRadial_value (Or.inr rfl)).1 _ (hin p₀ hp₀ h) (hd _ _) rfl] at h3
      have := hd c (coords p₀)
      linarith
    · push Not at h
      obtain ⟨r, h4, h5⟩ := h
      rw [(calcRadial_value (Or.inr rfl)).2.1 (hout p₀ hp₀ r h4 h5)] at h3
      linarith
  · obtain ⟨_, hx, q, hq, hqm⟩ := mem_pixels.1 h2.1
    cases List.mem_singleton.1 hx
    by_cases h : ∀ r, radius = some r → dist c (coords q) ≤ r
    · rw [(calcRadial_value (Or.inr rfl)).1 _ (hin q hq h) (hd _ _) rfl] at hqm
      exact .inr ⟨q, hq, h, by rw [hqm]⟩
    · push Not at h
      obtain ⟨r, h4, h5⟩ := h
      rw [(calcRadial_value (Or.inr rfl)).2.1 (hout q hq r h4 h5)] at hqm
      exact .inl (by show m + 1 = 1; rw [← hqm]; ring)
  · intro nJobs hn X i x hi hx
    unfold radialTransform
    rw [Gtda.Props.C17_njobs_map _ nJobs hn, List.getElem?_map, hi]
    refine ⟨_, rfl, ?_⟩
    intro p hp
    have hv := calcRadial_value (mesh := mesh) (maxValue := m + 1) (hx p hp)
    exact ⟨fun h3 h => hv.1 _ (hin p hp h) (hd _ _) h3, fun _ r h4 h5 => hv.2.1 (hout p hp r h4 h5), hv.2.2⟩

/-- The taxicab distance of two vectors, as a metric for the examples. -/
def taxicab (a b : List ℚ) : ℚ := (List.zipWith (fun s t => |s - t|) a b).sum

theorem taxicab_nonneg (a b : List ℚ) : 0 ≤ taxicab a b := by
  unfold taxicab
  apply List.sum_nonneg
  intro x hx
  rw [List.mem_iff_getElem] at hx
  obtain ⟨i, hi, rfl⟩ := hx
  simp

/-- Centre (column 1, row 0), radius 1: pixel `(0, 0)` has distance 1, pixel `(1, 2)` distance 2 (outside). -/
example : (radialFit (K := ℚ) [2, 3] (some [1, 0]) (some 1) taxicab).map (fun f => (f.maxValue,
    (radialTransform f 2 [fun _ => 1, fun p => if p = [0, 1] then 0 else 1]).map fun y => (y [0, 1], y [0, 0], y [1, 2]))) =
    .ok (2, [(0, 1, 2), (2, 1, 2)]) := by decide +kernel

/-! ### Batch independence -/

/-- **C65** HeightFiltration and RadialFiltration treat images one by one, whatever the number of jobs. -/
theorem C65_height_radial_batch (nJobs : Nat) (hn : 1 ≤ nJobs) (X : List (Img K)) :
    (∀ f, heightTransform f nJobs X = X.flatMap fun x => heightTransform f 1 [x]) ∧
    (∀ f, radialTransform f nJobs X = X.flatMap fun x => radialTransform f 1 [x]) := by
  constructor <;> intro f
  · unfold heightTransform
    simp only [Gtda.Props.C17_njobs_map _ 1 le_rfl, Gtda.Props.C17_njobs_map _ nJobs hn, List.map_cons, List.map_nil]
    rw [← List.map_eq_flatMap]
  · unfold radialTransform
    simp only [Gtda.Props.C17_njobs_map _ 1 le_rfl, Gtda.Props.C17_njobs_map _ nJobs hn, List.map_cons, List.map_nil]
    rw [← List.map_eq_flatMap]

end Gtda.Images
