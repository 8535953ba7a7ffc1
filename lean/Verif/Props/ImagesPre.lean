import Mathlib.Tactic.Linarith
import Mathlib.Tactic.NormNum
import Mathlib.Tactic.FieldSimp
import Mathlib.Data.Rat.Floor
import Verif.Spec.ImageTypes
import Verif.Props.ImagesDilation
import Verif.Props.Samplings

set_option autoImplicit false
set_option linter.unusedSectionVars false

/-!
# C55–C58: Binarizer, Inverter, Padder, ImageToPointCloud
-/

namespace Gtda.Images
open Gtda.Py Gtda.Parallel Gtda.Spec.Images

variable {K : Type} [Field K] [LinearOrder K] [IsStrictOrderedRing K]

/-! ### Binarizer -/

theorem checkDims_ok {shape : List Nat} (h : shape.length ≤ 3) : checkDims shape = .ok () := by
  unfold checkDims
  rw [if_neg (by omega)]

theorem mem_pixels {shape : List Nat} {X : List (Img K)} {v : K} : v ∈ pixels shape X ↔ ∃ x ∈ X, ∃ p, IsPixel shape p ∧ x p = v := by
  simp [pixels, mem_inds]

/-- The fitted maximum is the largest pixel of the training collection. -/
theorem C55_fit_max (shape : List Nat) (hd : shape.length ≤ 3) (X : List (Img K)) (x : Img K) (hx : x ∈ X) (p : Idx) (hp : IsPixel shape p) :
    ∃ m, binarizerFit shape X = .ok m ∧ IsGreatest {v | ∃ x ∈ X, ∃ p, IsPixel shape p ∧ x p = v} m := by
  obtain ⟨m, h1, h2⟩ := Gtda.Props.npMax_spec (pixels shape X) (List.ne_nil_of_mem (mem_pixels.2 ⟨x, hx, p, hp, rfl⟩))
  refine ⟨m, ?_, ?_⟩
  · unfold binarizerFit
    rw [checkDims_ok hd]
    exact h1
  · simpa [mem_pixels] using h2

/-- **C55** With a positive training maximum `m`, an output pixel is True iff the pixel exceeds `threshold * m`. -/
theorem C55_threshold (m threshold : K) (hm : 0 < m) (nJobs : Nat) (hn : 1 ≤ nJobs) (X : List (Img K)) (i : Nat) (x : Img K) (hi : X[i]? = some x) :
    ∃ y, (binarizerTransform m threshold nJobs X)[i]? = some y ∧ ∀ p, y p = true ↔ threshold * m < x p := by
  unfold binarizerTransform
  rw [Gtda.Props.C17_njobs_map _ nJobs hn, List.getElem?_map, hi]
  refine ⟨_, rfl, ?_⟩
  intro p
  unfold binarizePixel
  beta_reduce
  rw [if_neg hm.ne', decide_eq_true_iff, lt_div_iff₀ hm]

/-- **C55** Raising a pixel never turns it off (also for a zero maximum). -/
theorem C55_monotone (m threshold : K) (hm : 0 ≤ m) (x y : K) (h : x ≤ y) (hx : binarizePixel m threshold x = true) :
    binarizePixel m threshold y = true := by
  unfold binarizePixel at hx ⊢
  split at hx <;> rename_i h0
  · rw [if_pos h0]
    rw [decide_eq_true_iff] at hx ⊢
    linarith
  · rw [if_neg h0]
    rw [decide_eq_true_iff] at hx ⊢
    exact lt_of_lt_of_le hx (div_le_div_of_nonneg_right h hm)

theorem foldl_max_scale (c : K) (hc : 0 < c) (l : List K) (a : K) : (l.map fun v => c * v).foldl max (c * a) = c * l.foldl max a := by
  induction l generalizing a with
  | nil => rfl
  | cons b l ih =>
    simp only [List.map_cons, List.foldl_cons]
    rw [← mul_max_of_nonneg _ _ hc.le, ih]

/-- **C55** Scaling training and test images by the same positive factor changes nothing: fitting the scaled training images succeeds with the scaled
maximum, and the transforms agree. -/
theorem C55_scale_invariant (c : K) (hc : 0 < c) (shape : List Nat) (X Y : List (Img K)) (threshold : K) (nJobs : Nat) (hn : 1 ≤ nJobs) (m : K)
    (hf : binarizerFit shape X = .ok m) :
    ∃ m', binarizerFit shape (X.map fun x p => c * x p) = .ok m' ∧
      binarizerTransform m' threshold nJobs (Y.map fun x p => c * x p) = binarizerTransform m threshold nJobs Y := by
  refine ⟨c * m, ?_, ?_⟩
  · unfold binarizerFit checkDims at hf ⊢
    by_cases h3 : 3 < shape.length
    · rw [if_pos h3] at hf
      cases hf
    · rw [if_neg h3] at hf ⊢
      have hpx : pixels shape (X.map fun x p => c * x p) = (pixels shape X).map fun v => c * v := by
        simp [pixels, List.flatMap_map, List.map_flatMap, Function.comp_def]
      change Gtda.Diagrams.npMax _ = _ at hf
      change Gtda.Diagrams.npMax _ = _
      rw [hpx]
      cases hp : pixels shape X with
      | nil => rw [hp] at hf; cases hf
      | cons a l =>
        rw [hp] at hf
        simp only [Gtda.Diagrams.npMax, List.map_cons] at hf ⊢
        injection hf with hf
        rw [foldl_max_scale c hc, hf]
  · unfold binarizerTransform
    rw [Gtda.Props.C17_njobs_map _ nJobs hn, Gtda.Props.C17_njobs_map _ nJobs hn, List.map_map]
    apply List.map_congr_left
    intro x _
    funext p
    simp only [Function.comp]
    unfold binarizePixel
    by_cases hm : m = 0
    · simp [hm, mul_pos_iff_of_pos_left hc]
    · rw [if_neg (mul_ne_zero hc.ne' hm), if_neg hm, mul_div_mul_left _ _ hc.ne']

example : binarizerFit [1, 3] [fun p => (p.getD 1 0 : ℚ) * 4, fun _ => 5] = .ok 8 := by decide +kernel
example : ((binarizerTransform (8 : ℚ) (1 / 2) 2 [fun p => (p.getD 1 0 : ℚ) * 4, fun _ => 5]).map fun y => (y [0, 1], y [0, 2])) =
    [(false, true), (true, true)] := by decide +kernel

/-! ### Inverter -/

/-- **C56** For boolean images (fitted with `max_value=None`) the inverter is logical negation. -/
theorem C56_boolean (shape : List Nat) (hd : shape.length ≤ 3) (X Y : List (Img Bool)) (nJobs : Nat) (hn : 1 ≤ nJobs) :
    ((inverterFit (K := K) shape none (.bools X)) >>= fun m => inverterTransform nJobs m (.bools Y)) = .ok (.bools (Y.map fun y p => !(y p))) := by
  unfold inverterFit
  rw [checkDims_ok hd]
  change inverterTransform nJobs (.bool true) (.bools Y) = _
  simp only [inverterTransform, Gtda.Props.C17_njobs_map _ nJobs hn]
  rfl

/-- **C56** (part) For boolean images with logical negation, and for numeric images with a numeric `max_value_`, inverting twice gives the images back; missing:
`max_value=True` on numeric images, where this is false, see `C56_refuted_true_on_numbers`. -/
theorem C56_involution_partial (nJobs : Nat) (hn : 1 ≤ nJobs) :
    (∀ Y : List (Img Bool), (inverterTransform nJobs (MaxVal.bool (K := K) true) (.bools Y) >>= inverterTransform nJobs (.bool true)) = .ok (.bools Y)) ∧
    (∀ (m : K) (Y : List (Img K)), (inverterTransform nJobs (.num m) (.nums Y) >>= inverterTransform nJobs (.num m)) = .ok (.nums Y)) := by
  constructor
  · intro Y
    simp only [inverterTransform, Gtda.Props.C17_njobs_map _ nJobs hn]
    change inverterTransform nJobs (MaxVal.bool (K := K) true) (Coll.bools (Y.map fun x p => !(x p))) = _
    simp only [inverterTransform, Gtda.Props.C17_njobs_map _ nJobs hn, List.map_map]
    have : (fun (x : Img Bool) (p : Idx) => !(x p)) ∘ (fun x p => !(x p)) = id := by
      funext x p
      simp
    rw [this, List.map_id]
    rfl
  · intro m Y
    simp only [inverterTransform, Gtda.Props.C17_njobs_map _ nJobs hn]
    change inverterTransform nJobs (MaxVal.num m) (Coll.nums (Y.map fun x p => m - x p)) = _
    simp only [inverterTransform, Gtda.Props.C17_njobs_map _ nJobs hn, List.map_map]
    have : (fun (x : Img K) (p : Idx) => m - x p) ∘ (fun x p => m - x p) = id := by
      funext x p
      simp
    rw [this, List.map_id]
    rfl

/-- **C56** Numeric `max_value_`: the order of pixel values is reversed (strictly, hence exactly). -/
theorem C56_order_reversing (m : K) (nJobs : Nat) (hn : 1 ≤ nJobs) (X : List (Img K)) :
    ∃ Y, inverterTransform nJobs (.num m) (.nums X) = .ok (.nums Y) ∧ Y.length = X.length ∧
      ∀ (i j : Nat) x x' y y', X[i]? = some x → X[j]? = some x' → Y[i]? = some y → Y[j]? = some y' → ∀ p q, x p < x' q ↔ y' q < y p := by
  refine ⟨X.map fun x p => m - x p, ?_, by simp, ?_⟩
  · simp only [inverterTransform, Gtda.Props.C17_njobs_map _ nJobs hn]
    rfl
  · intro i j x x' y y' h1 h2 h3 h4 p q
    rw [List.getElem?_map, h1] at h3
    rw [List.getElem?_map, h2] at h4
    cases h3
    cases h4
    simp

/-- **C56** With `max_value=None` on numeric training images the inverted training images are non-negative, and 0 is attained. -/
theorem C56_nonneg (shape : List Nat) (hd : shape.length ≤ 3) (X : List (Img K)) (x₀ : Img K) (hx₀ : x₀ ∈ X) (p₀ : Idx) (hp₀ : IsPixel shape p₀)
    (nJobs : Nat) (hn : 1 ≤ nJobs) :
    ∃ Y, ((inverterFit shape none (.nums X)) >>= fun m => inverterTransform nJobs m (.nums X)) = .ok (.nums Y) ∧
      (∀ y ∈ Y, ∀ p, IsPixel shape p → 0 ≤ y p) ∧ ∃ y ∈ Y, ∃ p, IsPixel shape p ∧ y p = 0 := by
  obtain ⟨m, h1, h2⟩ := Gtda.Props.npMax_spec (pixels shape X) (List.ne_nil_of_mem (mem_pixels.2 ⟨x₀, hx₀, p₀, hp₀, rfl⟩))
  refine ⟨X.map fun x p => m - x p, ?_, ?_, ?_⟩
  · unfold inverterFit
    rw [checkDims_ok hd]
    change ((Gtda.Diagrams.npMax (pixels shape X) >>= fun m => pure (MaxVal.num m)) >>= fun m => inverterTransform nJobs m (.nums X)) = _
    rw [h1]
    change inverterTransform nJobs (.num m) (.nums X) = _
    simp only [inverterTransform, Gtda.Props.C17_njobs_map _ nJobs hn]
    rfl
  · intro y hy p hp
    obtain ⟨x, hx, rfl⟩ := List.mem_map.1 hy
    have := h2.2 (mem_pixels.2 ⟨x, hx, p, hp, rfl⟩)
    simpa using this
  · obtain ⟨x, hx, p, hp, h⟩ := mem_pixels.1 h2.1
    exact ⟨_, List.mem_map_of_mem hx, p, hp, by simp [h]⟩

/-- **C56** is false without restriction: with `max_value=True` a greyscale image is collapsed to the test for zero. Two different greyscale images have the same
inverse, so no transform can restore them. -/
theorem C56_refuted_true_on_numbers :
    inverterTransform (K := ℚ) 1 (.bool true) (.nums [fun _ => 3]) = inverterTransform 1 (.bool true) (.nums [fun _ => 5]) := by
  simp only [inverterTransform, Gtda.Props.C17_njobs_map _ 1 le_rfl]
  simp

/-- … and `max_value=False`, which the hyperparameter check admits, raises `TypeError` on boolean images. -/
theorem C56_refuted_false_on_booleans (nJobs : Nat) (X : List (Img Bool)) :
    inverterTransform (K := K) nJobs (.bool false) (.bools X) = .error .typeError := rfl

example : (match inverterFit [1, 3] none (Coll.nums [fun p => (p.getD 1 0 : ℚ) * 4, fun _ => 5]) with
    | .ok (.num m) => m | _ => 0) = 8 := by decide +kernel
example : IsPixel [1, 3] [0, 2] := .cons (by decide) (.cons (by decide) .nil)

/-! ### Padder -/

/-- Index addition. -/
def addIdx (p w : List Nat) : List Nat := List.zipWith (· + ·) p w

theorem unpadIdx_add {ws shape p : List Nat} (hl : ws.length = shape.length) (hp : IsPixel shape p) : unpadIdx ws shape (addIdx p ws) = some p := by
  unfold IsPixel at hp
  induction hp generalizing ws with
  | nil => cases ws <;> simp_all [unpadIdx, addIdx]
  | @cons i d p ds h t ih =>
    cases ws with
    | nil => simp at hl
    | cons w ws =>
      have := ih (ws := ws) (by simpa using hl)
      unfold addIdx at this ⊢
      simp only [List.zipWith_cons_cons, unpadIdx]
      rw [if_pos (by omega), this]
      simp

theorem unpadIdx_some {ws shape q p : List Nat} (h : unpadIdx ws shape q = some p) : IsPixel shape p ∧ q = addIdx p ws := by
  unfold IsPixel addIdx
  induction ws generalizing shape q p with
  | nil =>
    cases shape <;> cases q <;> simp [unpadIdx] at h
    subst h
    simp
  | cons w ws ih =>
    cases shape <;> cases q <;> simp only [unpadIdx, reduceCtorEq] at h
    rename_i d ds i q
    split at h
    · rename_i hi
      rw [Option.map_eq_some_iff] at h
      obtain ⟨a, ha, rfl⟩ := h
      obtain ⟨h1, h2⟩ := ih ha
      refine ⟨List.Forall₂.cons (by omega) h1, ?_⟩
      rw [List.zipWith_cons_cons, ← h2]
      congr 1
      omega
    · cases h

/-- **C57** The fitted padding: ones by default, the given one if it has an entry per axis, else `ValueError`. -/
theorem C57_fit (shape : List Nat) (hd : shape.length ≤ 3) :
    padderFit shape none = .ok (List.replicate shape.length 1) ∧
    ∀ w : List Int, padderFit shape (some w) = if w.length = shape.length then .ok w else .error .valueError := by
  unfold padderFit
  rw [checkDims_ok hd]
  refine ⟨rfl, ?_⟩
  intro w
  change (if w.length ≠ shape.length then _ else _) = _
  by_cases h : w.length = shape.length
  · rw [if_pos h, if_neg (by simpa using h)]
    rfl
  · rw [if_neg h, if_pos h]

theorem castTo_representable [FloorRing K] (dtype : Dtype) (v : K) (h : Representable dtype v) : castTo dtype v = v := by
  cases dtype with
  | bool => rcases h with rfl | rfl <;> simp [castTo]
  | int => obtain ⟨z, rfl⟩ := h; simp [castTo]
  | float => rfl

theorem castTo_stored [FloorRing K] (dtype : Dtype) (v : K) : StoredAs dtype v (castTo dtype v) := by
  cases dtype with
  | bool => refine ⟨fun h => ?_, fun h => ?_⟩ <;> simp [castTo, h]
  | float => rfl
  | int =>
    by_cases h : 0 ≤ v
    · refine ⟨⌊v⌋, by simp [castTo, h], ?_, ?_⟩
      · have h1 : (0 : K) ≤ (⌊v⌋ : K) := by exact_mod_cast Int.floor_nonneg.2 h
        simp only [castTo, h, if_true]
        rw [abs_of_nonneg h, abs_of_nonneg h1]
        exact Int.floor_le v
      · simp only [castTo, h, if_true]
        rw [abs_of_nonneg (sub_nonneg.2 (Int.floor_le v))]
        linarith [Int.lt_floor_add_one v]
    · refine ⟨⌈v⌉, by simp [castTo, h], ?_, ?_⟩
      · have h0 := (not_le.1 h).le
        have h1 : (⌈v⌉ : K) ≤ 0 := by exact_mod_cast Int.ceil_nonpos.2 h0
        simp only [castTo, h, if_false]
        rw [abs_of_nonpos h0, abs_of_nonpos h1]
        exact neg_le_neg (Int.le_ceil v)
      · simp only [castTo, h, if_false]
        rw [abs_of_nonpos (sub_nonpos.2 (Int.le_ceil v))]
        linarith [Int.ceil_lt_add_one v]

theorem stored_unique (dtype : Dtype) (v u u' : K) (h : StoredAs dtype v u) (h' : StoredAs dtype v u') : u = u' := by
  cases dtype with
  | bool =>
    by_cases hv : v = 0
    · rw [h.1 hv, h'.1 hv]
    · rw [h.2 hv, h'.2 hv]
  | float => rw [h, h']
  | int =>
    obtain ⟨z, rfl, h1, h2⟩ := h
    obtain ⟨z', rfl, h3, h4⟩ := h'
    rcases le_total 0 v with hv | hv
    · rw [abs_of_nonneg hv] at h1 h3
      rw [abs_lt] at h2 h4
      have a1 := le_trans (le_abs_self (z : K)) h1
      have a2 := le_trans (le_abs_self (z' : K)) h3
      have b1 : z < z' + 1 := by exact_mod_cast (show (z : K) < (z' : K) + 1 by linarith [h4.2])
      have b2 : z' < z + 1 := by exact_mod_cast (show (z' : K) < (z : K) + 1 by linarith [h2.2])
      have : z = z' := by omega
      rw [this]
    · rw [abs_of_nonpos hv] at h1 h3
      rw [abs_lt] at h2 h4
      have a1 := le_trans (neg_le_abs (z : K)) h1
      have a2 := le_trans (neg_le_abs (z' : K)) h3
      have b1 : z < z' + 1 := by exact_mod_cast (show (z : K) < (z' : K) + 1 by linarith [h2.1])
      have b2 : z' < z + 1 := by exact_mod_cast (show (z' : K) < (z : K) + 1 by linarith [h4.1])
      have : z = z' := by omega
      rw [this]

/-- **C57** For a padding of non-negative widths, one per axis: the new shape is the old one plus twice the padding, the original image sits in the centre, and every other pixel is what becomes of the
padding value when it is stored in images of their dtype. -/
theorem C57_pad [FloorRing K] (dtype : Dtype) (ws shape : List Nat) (hl : ws.length = shape.length) (value : K) (nJobs : Nat) (hn : 1 ≤ nJobs) (X : List (Img K)) :
    ∃ shape' Y, padderTransform dtype (ws.map fun (w : Nat) => (w : Int)) value nJobs shape X = .ok (shape', Y) ∧
      shape' = List.zipWith (fun d w => d + 2 * w) shape ws ∧
      ∀ (i : Nat) x, X[i]? = some x → ∃ y, Y[i]? = some y ∧
        (∀ p, IsPixel shape p → y (List.zipWith (· + ·) p ws) = x p) ∧
        (∀ q, (∀ p, IsPixel shape p → q ≠ List.zipWith (· + ·) p ws) → StoredAs dtype value (y q)) := by
  refine ⟨padShape ws shape, X.map (npPad ws shape (castTo dtype value)), ?_, ?_, ?_⟩
  · unfold padderTransform
    have hneg : ((ws.map fun (w : Nat) => (w : Int)).any fun x => decide (x < 0)) = false := by
      rw [List.any_eq_false]
      intro a ha
      obtain ⟨w, _, rfl⟩ := List.mem_map.1 ha
      simp
    have hmap : (ws.map fun (w : Nat) => (w : Int)).map Int.toNat = ws := by
      simp [List.map_map, Function.comp_def]
    rw [hneg]
    simp only [Bool.false_eq_true, if_false, hmap, Gtda.Props.C17_njobs_map _ nJobs hn]
    rfl
  · unfold padShape
    rw [List.zipWith_comm]
    congr 1
    funext d w
    omega
  · intro i x hi
    refine ⟨npPad ws shape (castTo dtype value) x, by rw [List.getElem?_map, hi]; rfl, ?_, ?_⟩
    · intro p hp
      have := unpadIdx_add hl hp
      unfold addIdx at this
      unfold npPad
      rw [this]
    · intro q hq
      unfold npPad
      cases h : unpadIdx ws shape q with
      | none => exact castTo_stored dtype value
      | some p => exact absurd (unpadIdx_some h).2 (hq p (unpadIdx_some h).1)

/-- **C57** (part) … so every other pixel is the padding value, provided it is representable in the dtype of the images. Missing: the general value, see `C57_refuted_integer_images`. -/
theorem C57_pad_partial [FloorRing K] (dtype : Dtype) (ws shape : List Nat) (hl : ws.length = shape.length) (value : K)
    (hv : Representable dtype value) (nJobs : Nat) (hn : 1 ≤ nJobs) (X : List (Img K)) :
    ∃ shape' Y, padderTransform dtype (ws.map fun (w : Nat) => (w : Int)) value nJobs shape X = .ok (shape', Y) ∧
      shape' = List.zipWith (fun d w => d + 2 * w) shape ws ∧
      ∀ (i : Nat) x, X[i]? = some x → ∃ y, Y[i]? = some y ∧
        (∀ p, IsPixel shape p → y (List.zipWith (· + ·) p ws) = x p) ∧
        (∀ q, (∀ p, IsPixel shape p → q ≠ List.zipWith (· + ·) p ws) → y q = value) := by
  obtain ⟨S, Y, h1, h2, h3⟩ := C57_pad dtype ws shape hl value nJobs hn X
  refine ⟨S, Y, h1, h2, ?_⟩
  intro i x hi
  obtain ⟨y, hy, ha, hb⟩ := h3 i x hi
  refine ⟨y, hy, ha, fun q hq => stored_unique dtype value _ _ (hb q hq) ?_⟩
  have := castTo_stored dtype value
  rwa [castTo_representable dtype value hv] at this

/-- **C57** is false for integer images and a fractional padding value: the border of an integer image padded with 3/4 is 0, not 3/4. -/
theorem C57_refuted_integer_images :
    (padderTransform (K := ℚ) .int [1, 1] (3 / 4) 1 [2, 2] [fun _ => 5]).map (fun r => r.2.map fun y => (y [0, 0], y [1, 2])) = .ok [(0, 5)] := by
  decide +kernel

/-- Negative paddings are rejected. -/
theorem C57_negative [FloorRing K] (dtype : Dtype) (padding : List Int) (w : Int) (hw : w ∈ padding) (hneg : w < 0) (value : K) (nJobs : Nat)
    (shape : List Nat) (X : List (Img K)) : padderTransform dtype padding value nJobs shape X = .error .valueError := by
  unfold padderTransform
  rw [if_pos]
  rw [List.any_eq_true]
  exact ⟨w, hw, by simpa using hneg⟩

example : (padderTransform (K := ℚ) .int [1] (-7 / 4) 1 [1] [fun _ => 5]).map (fun r => r.2.map fun y => (y [0], y [1])) = .ok [(-1, 5)] := by decide +kernel
example : StoredAs .int (-7 / 4 : ℚ) (-1) := ⟨-1, by norm_num, by norm_num [abs_of_nonpos], by norm_num [abs_lt]⟩
example : (padderTransform (K := ℚ) .float [1, 2] (3 / 4) 2 [2, 3] [fun p => (p.getD 0 0 : ℚ), fun _ => 5]).map
    (fun r => (r.1, r.2.map fun y => (y [0, 0], y [2, 2], y [1, 4], y [2, 5]))) =
    .ok ([4, 7], [(3 / 4, 1, 0, 3 / 4), (3 / 4, 5, 5, 3 / 4)]) := by decide +kernel

/-! ### ImageToPointCloud -/

/-- **C58** The point cloud of an image lists the positions (column, row counted from the bottom, depth) of exactly the active pixels, without repetition. -/
theorem C58_points (rows cols : Nat) (rest : List Nat) (nJobs : Nat) (hn : 1 ≤ nJobs) (X : List (Img K)) :
    ∃ clouds, toPointCloud nJobs (rows :: cols :: rest) X = .ok clouds ∧ clouds.length = X.length ∧
      ∀ (i : Nat) x, X[i]? = some x → ∃ cloud, clouds[i]? = some cloud ∧ cloud.Nodup ∧
        ∀ q, q ∈ cloud ↔ ∃ p, IsPixel (rows :: cols :: rest) p ∧ x p ≠ 0 ∧ q = position rows p := by
  refine ⟨(X.map fun x => swapAxes (flipRows (rows :: cols :: rest) x)).map (argwhere (cols :: rows :: rest)), ?_, ?_, ?_⟩
  · unfold toPointCloud
    rw [if_neg (by simp), Gtda.Props.C17_njobs_map _ nJobs hn]
    rfl
  · simp
  · intro i x hi
    refine ⟨argwhere (cols :: rows :: rest) (swapAxes (flipRows (rows :: cols :: rest) x)), by simp [List.getElem?_map, hi],
      (inds_nodup _).filter _, ?_⟩
    intro q
    unfold argwhere
    rw [List.mem_filter, mem_inds, decide_eq_true_iff]
    constructor
    · rintro ⟨hq, hx⟩
      cases hq with
      | @cons c _ q1 _ hc t1 =>
        cases t1 with
        | @cons r _ t _ hr t2 =>
          refine ⟨(rows - 1 - r) :: c :: t, .cons (by omega) (.cons hc t2), ?_, ?_⟩
          · simpa [swapAxes, swap01, flipRows] using hx
          · simp only [position]
            congr 2
            omega
    · rintro ⟨p, hp, hx, rfl⟩
      cases hp with
      | @cons r _ p1 _ hr t1 =>
        cases t1 with
        | @cons c _ t _ hc t2 =>
          refine ⟨.cons hc (.cons (by omega) t2), ?_⟩
          simp only [position, swapAxes, swap01, flipRows, List.headD_cons]
          rwa [show rows - 1 - (rows - 1 - r) = r by omega]

/-- **C58** Different active pixels have different positions, so there is exactly one point per active pixel. -/
theorem C58_one_point_per_pixel (rows cols : Nat) (rest : List Nat) (p q : Idx) (hp : IsPixel (rows :: cols :: rest) p)
    (hq : IsPixel (rows :: cols :: rest) q) (h : position rows p = position rows q) : p = q := by
  cases hp with
  | @cons r _ p1 _ hr t1 =>
    cases t1 with
    | @cons c _ t _ hc t2 =>
      cases hq with
      | @cons r' _ p1 _ hr' t1 =>
        cases t1 with
        | @cons c' _ t' _ hc' t2' =>
          simp only [position, List.cons.injEq] at h
          obtain ⟨rfl, h2, rfl⟩ := h
          rw [show r = r' by omega]

/-- One-dimensional images are rejected. -/
example : toPointCloud (K := ℚ) 1 [5] [fun _ => 1] = .error .valueError := rfl
example : toPointCloud (K := ℚ) 1 [2, 3] [fun p => if p = [0, 2] ∨ p = [1, 0] then 1 else 0] = .ok [[[0, 0], [2, 1]]] := by decide +kernel

end Gtda.Images
