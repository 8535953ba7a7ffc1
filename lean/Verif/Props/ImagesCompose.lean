import Verif.Props.ImagesPre

set_option autoImplicit false
set_option linter.unusedSectionVars false

/-!
# C136: image preprocessors in sequence

Padder, Inverter, Binarizer and ImageToPointCloud applied one after the other.
-/

namespace Gtda.Props.ImagesCompose
open Gtda.Py Gtda.Parallel Gtda.Images Gtda.Spec.Images

variable {K : Type} [Field K] [LinearOrder K] [IsStrictOrderedRing K]

theorem unpadIdx_twice (ws vs shape : List Nat) (h1 : ws.length = shape.length) (h2 : vs.length = shape.length) (q : Idx) :
    unpadIdx (List.zipWith (· + ·) ws vs) shape q = (unpadIdx vs (padShape ws shape) q).bind (unpadIdx ws shape) := by
  unfold padShape
  induction shape generalizing ws vs q with
  | nil =>
    rw [List.length_nil, List.length_eq_zero_iff] at h1 h2
    subst h1 h2
    cases q <;> simp [unpadIdx]
  | cons d ds ih =>
    cases ws with
    | nil => simp at h1
    | cons w ws =>
      cases vs with
      | nil => simp at h2
      | cons v vs =>
        cases q with
        | nil => simp [unpadIdx]
        | cons i q =>
          have := ih ws vs (by simpa using h1) (by simpa using h2) q
          simp only [List.zipWith_cons_cons, unpadIdx]
          rw [this]
          by_cases hv : v ≤ i ∧ i < v + (w + d + w)
          · rw [if_pos hv]
            cases hq : unpadIdx vs (List.zipWith (fun w d => w + d + w) ws ds) q with
            | none => simp
            | some r =>
              simp only [Option.bind_some, Option.map_some, unpadIdx]
              by_cases hw : w ≤ i - v ∧ i - v < w + d
              · rw [if_pos hw, if_pos (by omega)]
                congr 2
                funext l
                congr 1
                omega
              · rw [if_neg hw, if_neg (by omega)]
          · rw [if_neg hv, if_neg (by omega)]
            rfl

theorem npPad_twice {α : Type} (ws vs shape : List Nat) (h1 : ws.length = shape.length) (h2 : vs.length = shape.length) (fill : α) (x : Img α) :
    npPad vs (padShape ws shape) fill (npPad ws shape fill x) = npPad (List.zipWith (· + ·) ws vs) shape fill x := by
  funext q
  unfold npPad
  rw [unpadIdx_twice ws vs shape h1 h2 q]
  cases unpadIdx vs (padShape ws shape) q <;> rfl

theorem padShape_twice (ws vs shape : List Nat) (h1 : ws.length = shape.length) (h2 : vs.length = shape.length) :
    padShape vs (padShape ws shape) = padShape (List.zipWith (· + ·) ws vs) shape := by
  unfold padShape
  induction shape generalizing ws vs with
  | nil => simp
  | cons d ds ih =>
    cases ws with
    | nil => simp at h1
    | cons w ws =>
      cases vs with
      | nil => simp at h2
      | cons v vs =>
        simp only [List.zipWith_cons_cons]
        rw [ih ws vs (by simpa using h1) (by simpa using h2)]
        congr 1
        omega

theorem padderTransform_nat [FloorRing K] (dtype : Dtype) (ws shape : List Nat) (v : K) (nJobs : Nat) (hn : 1 ≤ nJobs) (X : List (Img K)) :
    padderTransform dtype (ws.map fun (w : Nat) => (w : Int)) v nJobs shape X = .ok (padShape ws shape, X.map (npPad ws shape (castTo dtype v))) := by
  unfold padderTransform
  rw [if_neg (by simp)]
  dsimp only
  rw [C17_njobs_map _ nJobs hn]
  simp only [List.map_map]
  have : (Int.toNat ∘ fun (w : Nat) => (w : Int)) = id := by funext; simp
  rw [this, List.map_id]
  rfl

theorem npPad_map {α β : Type} (ws shape : List Nat) (fill : α) (x : Img α) (g : α → β) : (fun p => g (npPad ws shape fill x p)) = npPad ws shape (g fill) (fun p => g (x p)) := by
  funext p
  unfold npPad
  cases unpadIdx ws shape p <;> rfl

theorem isPixel_add {ws shape p : List Nat} (hl : ws.length = shape.length) (hp : IsPixel shape p) : IsPixel (padShape ws shape) (addIdx p ws) := by
  unfold IsPixel padShape addIdx at *
  induction hp generalizing ws with
  | nil => cases ws <;> simp
  | @cons i d p ds h t ih =>
    cases ws with
    | nil => simp at hl
    | cons w ws =>
      simp only [List.zipWith_cons_cons]
      exact .cons (by omega) (ih (by simpa using hl))

theorem exists_border {ws shape p : List Nat} (hl : ws.length = shape.length) (hp : IsPixel shape p) (hw : ∃ w ∈ ws, 0 < w) :
    ∃ q, IsPixel (padShape ws shape) q ∧ unpadIdx ws shape q = none := by
  unfold IsPixel at hp
  induction hp generalizing ws with
  | nil => cases ws <;> simp_all
  | @cons i d p ds h t ih =>
    cases ws with
    | nil => simp at hl
    | cons w ws =>
      by_cases h0 : 0 < w
      · refine ⟨0 :: addIdx p ws, ?_, ?_⟩
        · have := isPixel_add (ws := ws) (by simpa using hl) t
          unfold IsPixel padShape at *
          simp only [List.zipWith_cons_cons]
          exact .cons (by omega) this
        · simp only [unpadIdx]
          rw [if_neg (by omega)]
      · obtain ⟨q, h1, h2⟩ := ih (ws := ws) (by simpa using hl) (by
          obtain ⟨v, hv, hv0⟩ := hw
          rcases List.mem_cons.1 hv with rfl | hv
          · omega
          · exact ⟨v, hv, hv0⟩)
        refine ⟨(i + w) :: q, ?_, ?_⟩
        · unfold IsPixel padShape at *
          simp only [List.zipWith_cons_cons]
          exact .cons (by omega) h1
        · simp only [unpadIdx]
          rw [h2]
          split <;> rfl

theorem isGreatest_unique {l : List K} {m : K} (h : IsGreatest {y | y ∈ l} m) : Gtda.Diagrams.npMax l = .ok m := by
  obtain ⟨m', h1, h2⟩ := npMax_spec l (List.ne_nil_of_mem h.1)
  rw [h1, h2.unique h]

/-- The maximum of a padded collection. -/
theorem npMax_padded (shape ws : List Nat) (hl : ws.length = shape.length) (hw : ∃ w ∈ ws, 0 < w) (X : List (Img K)) (fill m : K)
    (h : Gtda.Diagrams.npMax (pixels shape X) = .ok m) : Gtda.Diagrams.npMax (pixels (padShape ws shape) (X.map (npPad ws shape fill))) = .ok (max m fill) := by
  have hne : pixels shape X ≠ [] := by
    intro h0
    rw [h0] at h
    cases h
  obtain ⟨m', h1, h2⟩ := npMax_spec (pixels shape X) hne
  rw [h] at h1
  cases h1
  apply isGreatest_unique
  obtain ⟨x, hx, p, hp, hxp⟩ := mem_pixels.1 h2.1
  constructor
  · rw [Set.mem_ofPred_eq, mem_pixels]
    rcases le_total m fill with h3 | h3
    · rw [max_eq_right h3]
      obtain ⟨q, hq, hq'⟩ := exists_border hl hp hw
      refine ⟨_, List.mem_map_of_mem hx, q, hq, ?_⟩
      unfold npPad
      rw [hq']
    · rw [max_eq_left h3]
      refine ⟨_, List.mem_map_of_mem hx, _, isPixel_add hl hp, ?_⟩
      unfold npPad
      rw [unpadIdx_add hl hp]
      exact hxp
  · intro v hv
    rw [Set.mem_ofPred_eq, mem_pixels] at hv
    obtain ⟨y, hy, q, hq, rfl⟩ := hv
    obtain ⟨x', hx', rfl⟩ := List.mem_map.1 hy
    unfold npPad
    cases hu : unpadIdx ws shape q with
    | none => exact le_max_right _ _
    | some r => exact le_max_of_le_left (h2.2 (mem_pixels.2 ⟨x', hx', r, (unpadIdx_some hu).1, rfl⟩))

/-- Pixels of a padded image, in order. -/
theorem filter_inds_pad (ws shape : List Nat) (hl : ws.length = shape.length) (f : Idx → Bool) :
    (inds (padShape ws shape)).filter (fun q => match unpadIdx ws shape q with | some p => f p | none => false) = ((inds shape).filter f).map fun p => List.zipWith (· + ·) p ws := by
  unfold padShape
  induction shape generalizing ws f with
  | nil =>
    rw [List.length_nil, List.length_eq_zero_iff] at hl
    subst hl
    simp only [inds, List.zipWith_nil_left, unpadIdx, List.filter_cons, List.filter_nil]
    by_cases h : f [] = true <;> simp [h]
  | cons d ds ih =>
    cases ws with
    | nil => simp at hl
    | cons w ws =>
      simp only [List.zipWith_cons_cons, inds, List.filter_flatMap, List.map_flatMap]
      have hr : List.range (w + d + w) = List.range w ++ (List.range d).map (w + ·) ++ (List.range w).map (w + d + ·) := by
        rw [← List.range_add, ← List.range_add]
      rw [hr, List.flatMap_append, List.flatMap_append, List.flatMap_map, List.flatMap_map]
      have hout : ∀ i, ¬ (w ≤ i ∧ i < w + d) → ((inds (List.zipWith (fun w d => w + d + w) ws ds)).map (i :: ·)).filter
          (fun q => match unpadIdx (w :: ws) (d :: ds) q with | some p => f p | none => false) = [] := by
        intro i hi
        rw [List.filter_eq_nil_iff]
        intro q hq
        obtain ⟨r, -, rfl⟩ := List.mem_map.1 hq
        simp only [unpadIdx]
        rw [if_neg hi]
        simp
      have e1 : ((List.range w).flatMap fun i => ((inds (List.zipWith (fun w d => w + d + w) ws ds)).map (i :: ·)).filter
          (fun q => match unpadIdx (w :: ws) (d :: ds) q with | some p => f p | none => false)) = [] := by
        rw [List.flatMap_eq_nil_iff]
        intro i hi
        exact hout i (by have := List.mem_range.1 hi; omega)
      have e2 : ((List.range w).flatMap fun i => ((inds (List.zipWith (fun w d => w + d + w) ws ds)).map ((w + d + i) :: ·)).filter
          (fun q => match unpadIdx (w :: ws) (d :: ds) q with | some p => f p | none => false)) = [] := by
        rw [List.flatMap_eq_nil_iff]
        intro i hi
        exact hout _ (by omega)
      rw [e1, e2, List.nil_append, List.append_nil]
      apply List.flatMap_congr
      intro i hi
      have hi := List.mem_range.1 hi
      rw [List.filter_map, List.filter_map, List.map_map]
      have := ih ws (by simpa using hl) (fun p => f (i :: p))
      have hf : ((fun q => match unpadIdx (w :: ws) (d :: ds) q with | some p => f p | none => false) ∘ fun x => (w + i) :: x) =
          fun q => match unpadIdx ws ds q with | some p => f (i :: p) | none => false := by
        funext q
        simp only [Function.comp, unpadIdx]
        rw [if_pos (by omega)]
        cases unpadIdx ws ds q with
        | none => rfl
        | some p => simp
      rw [hf, this, List.map_map]
      apply List.map_congr_left
      intro p hp
      simp only [Function.comp, List.zipWith_cons_cons]
      congr 1
      omega

theorem swap01_padShape (ws shape : List Nat) (hl : ws.length = shape.length) : swap01 (padShape ws shape) = padShape (swap01 ws) (swap01 shape) := by
  unfold padShape
  rcases ws with - | ⟨w, - | ⟨v, ws⟩⟩ <;> rcases shape with - | ⟨d, - | ⟨e, ds⟩⟩ <;> simp [swap01] at hl ⊢

theorem unpad_flip (w v d e c r : Nat) (ws ds t : List Nat) (hr : r < w + d + w) :
    unpadIdx (w :: v :: ws) (d :: e :: ds) ((w + d + w - 1 - r) :: c :: t) = (unpadIdx (v :: w :: ws) (e :: d :: ds) (c :: r :: t)).map fun p => (d - 1 - p.getD 1 0) :: p.getD 0 0 :: p.drop 2 := by
  simp only [unpadIdx]
  by_cases hc : v ≤ c ∧ c < v + e
  · rw [if_pos hc, if_pos hc]
    by_cases hr' : w ≤ r ∧ r < w + d
    · rw [if_pos hr', if_pos (by omega)]
      cases unpadIdx ws ds t with
      | none => rfl
      | some q =>
        have : w + d + w - 1 - r - w = d - 1 - (r - w) := by omega
        simp [this]
    · rw [if_neg hr', if_neg (by omega)]
      rfl
  · rw [if_neg hc, if_neg hc]
    split <;> rfl

theorem argwhere_pad (w v d e : Nat) (ws ds : List Nat) (hl : ws.length = ds.length) (x : Img K) :
    argwhere (swap01 (padShape (w :: v :: ws) (d :: e :: ds))) (swapAxes (flipRows (padShape (w :: v :: ws) (d :: e :: ds)) (npPad (w :: v :: ws) (d :: e :: ds) 0 x))) =
    (argwhere (swap01 (d :: e :: ds)) (swapAxes (flipRows (d :: e :: ds) x))).map fun p => List.zipWith (· + ·) p (v :: w :: ws) := by
  have key := filter_inds_pad (v :: w :: ws) (e :: d :: ds) (by simpa using hl) fun p => decide (swapAxes (flipRows (d :: e :: ds) x) p ≠ 0)
  unfold argwhere
  rw [swap01_padShape _ _ (by simpa using hl)]
  rw [show swap01 (w :: v :: ws) = v :: w :: ws from rfl, show swap01 (d :: e :: ds) = e :: d :: ds from rfl, ← key]
  apply List.filter_congr
  intro q hq
  rw [mem_inds] at hq
  unfold padShape at hq
  simp only [List.zipWith_cons_cons] at hq
  cases hq with
  | @cons c _ q1 _ hc t1 =>
    cases t1 with
    | @cons r _ t _ hr t2 =>
      have hu := unpad_flip w v d e c r ws ds t hr
      have he : swapAxes (flipRows (padShape (w :: v :: ws) (d :: e :: ds)) (npPad (w :: v :: ws) (d :: e :: ds) 0 x)) (c :: r :: t) =
          match unpadIdx (w :: v :: ws) (d :: e :: ds) ((w + d + w - 1 - r) :: c :: t) with | some q => x q | none => 0 := rfl
      simp only [he, hu]
      cases hq' : unpadIdx (v :: w :: ws) (e :: d :: ds) (c :: r :: t) with
      | none => simp
      | some p =>
        have hp := (unpadIdx_some hq').1
        cases hp with
        | @cons c' _ p1 _ hc' s1 =>
          cases s1 with
          | @cons r' _ s _ hr' s2 => simp [swapAxes, swap01, flipRows]

end Gtda.Props.ImagesCompose

namespace Gtda.Props
open Gtda.Py Gtda.Parallel Gtda.Images Gtda.Spec.Images ImagesCompose

variable {K : Type} [Field K] [LinearOrder K] [IsStrictOrderedRing K]

/-- **C136**, Padder after Padder: padding twice with the same value is padding once with the widths added, whatever the numbers of jobs. -/
theorem C136_pad_twice [FloorRing K] (dtype : Dtype) (W V : List Int) (hW : ∀ w ∈ W, 0 ≤ w) (hV : ∀ v ∈ V, 0 ≤ v) (shape : List Nat) (h1 : W.length = shape.length)
    (h2 : V.length = shape.length) (value : K) (n₁ n₂ n₃ : Nat) (hn₁ : 1 ≤ n₁) (hn₂ : 1 ≤ n₂) (hn₃ : 1 ≤ n₃) (X : List (Img K)) :
    (padderTransform dtype W value n₁ shape X >>= fun r => padderTransform dtype V value n₂ r.1 r.2) =
      padderTransform dtype (List.zipWith (· + ·) W V) value n₃ shape X := by
  have lift : ∀ L : List Int, (∀ w ∈ L, 0 ≤ w) → L = (L.map Int.toNat).map fun (w : Nat) => (w : Int) := by
    intro L hL
    rw [List.map_map]
    conv_lhs => rw [← List.map_id L]
    apply List.map_congr_left
    intro w hw
    have := hL w hw
    simp [Int.toNat_of_nonneg this]
  rw [lift W hW, lift V hV]
  generalize hw : W.map Int.toNat = ws
  generalize hv : V.map Int.toNat = vs
  have l1 : ws.length = shape.length := by rw [← hw, List.length_map, h1]
  have l2 : vs.length = shape.length := by rw [← hv, List.length_map, h2]
  have hz : List.zipWith (· + ·) (ws.map fun (w : Nat) => (w : Int)) (vs.map fun (w : Nat) => (w : Int)) = (List.zipWith (· + ·) ws vs).map fun (w : Nat) => (w : Int) := by
    rw [List.zipWith_map_left, List.zipWith_map_right, List.map_zipWith]
    congr 1
  rw [hz, padderTransform_nat _ _ _ _ _ hn₁, ok_bind]
  dsimp only
  rw [padderTransform_nat _ _ _ _ _ hn₂, padderTransform_nat _ _ _ _ _ hn₃, padShape_twice ws vs shape l1 l2, List.map_map]
  congr 2
  apply List.map_congr_left
  intro x _
  exact npPad_twice ws vs shape l1 l2 _ x

example : ((padderTransform (K := ℚ) .float [1, 0] 7 1 [1, 2] [fun p => (p.getD 1 0 : ℚ)] >>= fun r => padderTransform .float [1, 2] 7 1 r.1 r.2).map fun r => (r.1, r.2.map fun y => (y [2, 3], y [1, 3]))) =
    .ok ([5, 6], [(1, 7)]) := by decide +kernel

/-- **C136**, Inverter and Padder: inverting a padded collection against a number `m` is padding the inverted collection with `m - value`, when both values can be represented in the images. -/
theorem C136_pad_invert [FloorRing K] (dtype : Dtype) (ws shape : List Nat) (m value : K) (hv : Representable dtype value)
    (hmv : Representable dtype (m - value)) (n₁ n₂ : Nat) (hn₁ : 1 ≤ n₁) (hn₂ : 1 ≤ n₂) (X : List (Img K)) :
    ∃ S Y Z, padderTransform dtype (ws.map fun (w : Nat) => (w : Int)) value n₁ shape X = .ok (S, Y) ∧ inverterTransform n₂ (.num m) (.nums X) = .ok (.nums Z) ∧
      (inverterTransform n₂ (.num m) (.nums Y)).map (fun R => (S, R)) = (padderTransform dtype (ws.map fun (w : Nat) => (w : Int)) (m - value) n₁ shape Z).map fun r => (r.1, .nums r.2) := by
  refine ⟨_, _, X.map fun x p => m - x p, padderTransform_nat _ _ _ _ _ hn₁ _, ?_, ?_⟩
  · simp only [inverterTransform, C17_njobs_map _ n₂ hn₂]
    rfl
  · rw [padderTransform_nat _ _ _ _ _ hn₁, castTo_representable _ _ hv, castTo_representable _ _ hmv]
    simp only [inverterTransform, C17_njobs_map _ n₂ hn₂]
    refine congrArg (fun L => (Except.ok (padShape ws shape, Coll.nums L) : PyM (List Nat × Coll K))) ?_
    rw [List.map_map, List.map_map]
    apply List.map_congr_left
    intro x _
    exact npPad_map ws shape value x fun t => m - t

example : Representable (K := ℚ) .int 3 ∧ Representable (K := ℚ) .int (8 - 3) := ⟨⟨3, by norm_num⟩, 5, by norm_num⟩

/-- **C136**: if instead Inverter learns its `max_value_` from the padded collection, the learnt value is the larger of the largest pixel and the padding value, provided some padding is positive. -/
theorem C136_fit_padded [FloorRing K] (dtype : Dtype) (ws shape : List Nat) (hl : ws.length = shape.length) (hd : shape.length ≤ 3) (hw : ∃ w ∈ ws, 0 < w) (m value : K)
    (hv : Representable dtype value) (n : Nat) (hn : 1 ≤ n) (X : List (Img K)) (hm : inverterFit shape none (.nums X) = .ok (.num m)) :
    (padderTransform dtype (ws.map fun (w : Nat) => (w : Int)) value n shape X >>= fun r => inverterFit r.1 none (.nums r.2)) = .ok (.num (max m value)) ∧
    (padderTransform dtype (ws.map fun (w : Nat) => (w : Int)) value n shape X >>= fun r => binarizerFit r.1 r.2) = .ok (max m value) := by
  unfold inverterFit at hm
  rw [checkDims_ok hd] at hm
  dsimp only [ok_bind] at hm
  have hm' : Gtda.Diagrams.npMax (pixels shape X) = .ok m := by
    cases h : Gtda.Diagrams.npMax (pixels shape X) with
    | error e => rw [h] at hm; cases hm
    | ok a => rw [h] at hm; cases hm; rfl
  have hlen : (padShape ws shape).length ≤ 3 := by simp [padShape, hl, hd]
  have := npMax_padded shape ws hl hw X value m hm'
  rw [padderTransform_nat _ _ _ _ _ hn, castTo_representable _ _ hv]
  constructor
  · show inverterFit (padShape ws shape) none (.nums (X.map (npPad ws shape value))) = _
    unfold inverterFit
    rw [checkDims_ok hlen]
    dsimp only [ok_bind]
    rw [this]
    rfl
  · show binarizerFit (padShape ws shape) (X.map (npPad ws shape value)) = _
    unfold binarizerFit
    rw [checkDims_ok hlen]
    exact this

/-- **C136**: so a pipeline of Padder and Inverter with default `max_value` does not commute with the opposite order when the padding value exceeds all pixels: the image `[1]` padded with 5 and inverted has its
pixel at 4, inverted and then padded at 0. -/
theorem C136_refuted_pad_invert :
    ((padderTransform (K := ℚ) .float [1, 1] 5 1 [1, 1] [fun _ => 1] >>= fun r => inverterFit r.1 none (.nums r.2) >>= fun m => inverterTransform 1 m (.nums r.2)).map fun R =>
      match R with | .nums Y => Y.map fun y => y [1, 1] | .bools _ => []) = .ok [4] ∧
    ((inverterFit (K := ℚ) [1, 1] none (.nums [fun _ => 1]) >>= fun m => inverterTransform 1 m (.nums [fun _ => 1])).map fun R => match R with | .nums Y => Y.map fun y => y [0, 0] | .bools _ => []) = .ok [0] := by
  constructor <;> decide +kernel

/-- **C136**, Binarizer after Padder: if the padding value does not exceed the largest pixel, fitting and transforming the padded collection gives the padded binarized images: inside nothing changes, and the
border is active everywhere or nowhere; with a positive maximum it is active exactly if the value exceeds the threshold. -/
theorem C136_pad_binarize [FloorRing K] (dtype : Dtype) (ws shape : List Nat) (hl : ws.length = shape.length) (hd : shape.length ≤ 3) (hw : ∃ w ∈ ws, 0 < w) (m value threshold : K)
    (hv : Representable dtype value) (hvm : value ≤ m) (n₁ n₂ : Nat) (hn₁ : 1 ≤ n₁) (hn₂ : 1 ≤ n₂) (X : List (Img K)) (hm : inverterFit shape none (.nums X) = .ok (.num m)) :
    ∃ S Y, padderTransform dtype (ws.map fun (w : Nat) => (w : Int)) value n₁ shape X = .ok (S, Y) ∧ binarizerFit S Y = .ok m ∧
      ∀ (i : Nat) x, X[i]? = some x → ∃ y z, (binarizerTransform m threshold n₂ Y)[i]? = some y ∧ (binarizerTransform m threshold n₂ X)[i]? = some z ∧
        (∀ p, IsPixel shape p → y (List.zipWith (· + ·) p ws) = z p) ∧
        (∀ q q', (∀ p, IsPixel shape p → q ≠ List.zipWith (· + ·) p ws) → (∀ p, IsPixel shape p → q' ≠ List.zipWith (· + ·) p ws) → y q = y q') ∧
        (0 < m → (∀ p, IsPixel shape p → (y (List.zipWith (· + ·) p ws) = true ↔ threshold * m < x p)) ∧
          ∀ q, (∀ p, IsPixel shape p → q ≠ List.zipWith (· + ·) p ws) → (y q = true ↔ threshold * m < value)) := by
  have hf := (C136_fit_padded dtype ws shape hl hd hw m value hv n₁ hn₁ X hm).2
  rw [max_eq_left hvm] at hf
  obtain ⟨S, Y, h1, -, h3⟩ := C57_pad_partial dtype ws shape hl value hv n₁ hn₁ X
  rw [h1, ok_bind] at hf
  refine ⟨S, Y, h1, hf, ?_⟩
  intro i x hi
  obtain ⟨y, hy, ha, hb⟩ := h3 i x hi
  have hz : ∀ (X : List (Img K)) x, X[i]? = some x → (binarizerTransform m threshold n₂ X)[i]? = some fun p => binarizePixel m threshold (x p) := by
    intro X x hx
    simp only [binarizerTransform, C17_njobs_map _ n₂ hn₂, List.getElem?_map, hx, Option.map_some]
  refine ⟨_, _, hz Y y hy, hz X x hi, ?_, ?_, ?_⟩
  · intro p hp
    rw [ha p hp]
  · intro q q' hq hq'
    rw [hb q hq, hb q' hq']
  · intro hm0
    obtain ⟨z, hz', hzp⟩ := C55_threshold m threshold hm0 n₂ hn₂ Y i y hy
    rw [hz Y y hy, Option.some.injEq] at hz'
    subst hz'
    refine ⟨?_, ?_⟩
    · intro p hp
      rw [hzp, ha p hp]
    · intro q hq
      rw [hzp, hb q hq]

example : (inverterFit (K := ℚ) [1, 2] none (.nums [fun p => (p.getD 1 0 : ℚ)])).toOption.map (fun m => match m with | .num m => m | _ => 0) = some 1 := by decide +kernel

/-- **C136**, Binarizer after Binarizer: fitting and transforming the result, seen as an image of zeros and ones, once more changes nothing, for thresholds as admitted, if the largest pixel is not negative or the
threshold is below 1. -/
theorem C136_binarize_twice_partial (shape : List Nat) (hd : shape.length ≤ 3) (threshold : K) (ht : 0 < threshold) (ht1 : threshold ≤ 1) (n : Nat) (hn : 1 ≤ n) (X : List (Img K)) (m : K)
    (hm : binarizerFit shape X = .ok m) (hneg : 0 ≤ m ∨ threshold < 1) :
    ∃ m', binarizerFit shape ((binarizerTransform m threshold n X).map fun y p => if y p then (1 : K) else 0) = .ok m' ∧
      List.Forall₂ (fun z y => ∀ p, IsPixel shape p → z p = y p)
        (binarizerTransform m' threshold n ((binarizerTransform m threshold n X).map fun y p => if y p then (1 : K) else 0)) (binarizerTransform m threshold n X) := by
  unfold binarizerFit at hm ⊢
  rw [checkDims_ok hd, ok_bind] at hm ⊢
  have hne : pixels shape X ≠ [] := by
    intro h0
    rw [h0] at hm
    cases hm
  obtain ⟨m₀, h1, h2⟩ := npMax_spec (pixels shape X) hne
  rw [hm] at h1
  cases h1
  simp only [binarizerTransform, C17_njobs_map _ n hn, List.map_map]
  set B : List (Img K) := X.map ((fun y p => if y p = true then (1 : K) else 0) ∘ fun x p => binarizePixel m threshold (x p)) with hB
  obtain ⟨x₀, hx₀, p₀, hp₀, -⟩ := mem_pixels.1 h2.1
  have hne' : pixels shape B ≠ [] := List.ne_nil_of_mem (mem_pixels.2 ⟨_, List.mem_map_of_mem hx₀, p₀, hp₀, rfl⟩)
  obtain ⟨m', e1, e2⟩ := npMax_spec (pixels shape B) hne'
  refine ⟨m', e1, ?_⟩
  rw [List.forall₂_map_left_iff, List.forall₂_map_right_iff, List.forall₂_same]
  intro x hx p hp
  have hmem : ∀ q, IsPixel shape q → (if binarizePixel m threshold (x q) = true then (1 : K) else 0) ≤ m' := fun q hq =>
    e2.2 (mem_pixels.2 ⟨_, List.mem_map_of_mem hx, q, hq, rfl⟩)
  have hval : m' = 0 ∨ m' = 1 := by
    obtain ⟨y, hy, q, -, hyq⟩ := mem_pixels.1 e2.1
    obtain ⟨x', -, rfl⟩ := List.mem_map.1 hy
    rw [← hyq]
    dsimp only [Function.comp]
    split
    · exact .inr rfl
    · exact .inl rfl
  have hp' := hmem p hp
  dsimp only [Function.comp]
  by_cases hb : binarizePixel m threshold (x p) = true
  case neg =>
    rw [if_neg hb, Bool.eq_false_iff.2 hb]
    unfold binarizePixel
    split
    · simp
    · simpa using ht.le
  case pos =>
    rw [if_pos hb] at hp'
    have h1 : m' = 1 := by
      rcases hval with h | h
      · rw [h] at hp'
        exact absurd hp' (by norm_num)
      · exact h
    rw [if_pos hb, hb, h1]
    unfold binarizePixel
    rw [if_neg one_ne_zero, div_one, decide_eq_true_iff]
    rcases hneg with h0 | h0
    · by_contra hc
      have ht' : threshold = 1 := le_antisymm ht1 (not_lt.1 hc)
      have hle : x p ≤ m := h2.2 (mem_pixels.2 ⟨x, hx, p, hp, rfl⟩)
      unfold binarizePixel at hb
      split at hb
      · rename_i hm0
        rw [decide_eq_true_iff] at hb
        linarith
      · rename_i hm0
        rw [decide_eq_true_iff, ht', lt_div_iff₀ (lt_of_le_of_ne h0 (Ne.symm hm0))] at hb
        linarith
    · exact h0

example : binarizerFit (K := ℚ) [1, 3] [fun p => (p.getD 1 0 : ℚ)] = .ok 2 := by decide +kernel

/-- **C136** fails for negative images and `threshold=1`: of the pixels -1 and -2 the second is active, but in the image of the result nothing is. -/
theorem C136_refuted_binarize_twice :
    binarizerFit (K := ℚ) [1, 2] [fun p => -1 - (p.getD 1 0 : ℚ)] = .ok (-1) ∧
    (binarizerTransform (K := ℚ) (-1) 1 1 [fun p => -1 - (p.getD 1 0 : ℚ)]).map (fun y => [y [0, 0], y [0, 1]]) = [[false, true]] ∧
    binarizerFit (K := ℚ) [1, 2] ((binarizerTransform (K := ℚ) (-1) 1 1 [fun p => -1 - (p.getD 1 0 : ℚ)]).map fun y p => if y p then (1 : ℚ) else 0) = .ok 1 ∧
    (binarizerTransform (K := ℚ) 1 1 1 ((binarizerTransform (K := ℚ) (-1) 1 1 [fun p => -1 - (p.getD 1 0 : ℚ)]).map fun y p => if y p then (1 : ℚ) else 0)).map (fun y => [y [0, 0], y [0, 1]]) =
      [[false, false]] := by
  refine ⟨?_, ?_, ?_, ?_⟩ <;> decide +kernel

/-- **C136**, thresholds: a pixel which is active for a threshold is active for every smaller one. -/
theorem C136_threshold_monotone (m s t : K) (hst : s ≤ t) (n₁ n₂ : Nat) (hn₁ : 1 ≤ n₁) (hn₂ : 1 ≤ n₂) (X : List (Img K)) :
    List.Forall₂ (fun y z => ∀ p, y p = true → z p = true) (binarizerTransform m t n₁ X) (binarizerTransform m s n₂ X) := by
  simp only [binarizerTransform, C17_njobs_map _ n₁ hn₁, C17_njobs_map _ n₂ hn₂]
  rw [List.forall₂_map_left_iff, List.forall₂_map_right_iff, List.forall₂_same]
  intro x _ p h
  dsimp only at h ⊢
  unfold binarizePixel at h ⊢
  split
  · rename_i h0
    rwa [if_pos h0] at h
  · rename_i h0
    rw [if_neg h0, decide_eq_true_iff] at h
    exact decide_eq_true (lt_of_le_of_lt hst h)

example : (binarizerTransform (K := ℚ) 4 (1 / 2) 1 [fun p => (p.getD 0 0 : ℚ)]).map (fun y => [y [2], y [3]]) = [[false, true]] ∧
    (binarizerTransform (K := ℚ) 4 (1 / 4) 2 [fun p => (p.getD 0 0 : ℚ)]).map (fun y => [y [2], y [3]]) = [[true, true]] := by decide +kernel

/-- **C136**, ImageToPointCloud after Padder: padding with zeros moves the point cloud by the paddings, the second padding being horizontal, the first vertical; the order of the points is kept. -/
theorem C136_cloud_of_padded [FloorRing K] (dtype : Dtype) (w v d e : Nat) (ws ds : List Nat) (hl : ws.length = ds.length) (n₁ n₂ : Nat) (hn₁ : 1 ≤ n₁) (hn₂ : 1 ≤ n₂) (X : List (Img K)) :
    (padderTransform dtype ((w :: v :: ws).map fun (w : Nat) => (w : Int)) 0 n₁ (d :: e :: ds) X >>= fun r => toPointCloud n₂ r.1 r.2) =
      (toPointCloud n₂ (d :: e :: ds) X).map fun clouds => clouds.map fun cloud => cloud.map fun p => List.zipWith (· + ·) p (v :: w :: ws) := by
  have h0 : castTo dtype (0 : K) = 0 := by cases dtype <;> simp [castTo]
  rw [padderTransform_nat _ _ _ _ _ hn₁, h0, ok_bind]
  dsimp only
  unfold toPointCloud
  have hlen : ¬ (padShape (w :: v :: ws) (d :: e :: ds)).length < 2 := by simp [padShape]
  rw [if_neg hlen, if_neg (by simp), C17_njobs_map _ n₂ hn₂, C17_njobs_map _ n₂ hn₂]
  refine congrArg (Except.ok : _ → PyM (List (List Idx))) ?_
  dsimp only
  rw [List.map_map, List.map_map, List.map_map, List.map_map]
  apply List.map_congr_left
  intro x _
  exact argwhere_pad w v d e ws ds hl x

example : (padderTransform (K := ℚ) .float [1, 2] 0 1 [2, 2] [fun p => if p = [0, 1] then 1 else 0] >>= fun r => toPointCloud 1 r.1 r.2) = .ok [[[3, 2]]] ∧
    toPointCloud (K := ℚ) 1 [2, 2] [fun p => if p = [0, 1] then 1 else 0] = .ok [[[1, 1]]] := by decide +kernel

/-- **C136**, ImageToPointCloud after Inverter: for boolean images, every pixel's position belongs to the cloud of the image or to the cloud of the inverted image, and to one only. -/
theorem C136_cloud_of_inverted (rows cols : Nat) (rest : List Nat) (n : Nat) (hn : 1 ≤ n) (Y : List (Img Bool)) :
    ∃ Z A B, inverterTransform (K := K) n (.bool true) (.bools Y) = .ok (.bools Z) ∧
      toPointCloud n (rows :: cols :: rest) (Y.map fun y p => if y p then (1 : K) else 0) = .ok A ∧
      toPointCloud n (rows :: cols :: rest) (Z.map fun y p => if y p then (1 : K) else 0) = .ok B ∧
      List.Forall₂ (fun a b => ∀ p, IsPixel (rows :: cols :: rest) p → (position rows p ∈ b ↔ position rows p ∉ a)) A B := by
  obtain ⟨A, hA, hlA, hpA⟩ := C58_points rows cols rest n hn (Y.map fun y p => if y p then (1 : K) else 0)
  obtain ⟨B, hB, hlB, hpB⟩ := C58_points rows cols rest n hn ((Y.map fun y p => !(y p)).map fun y p => if y p then (1 : K) else 0)
  refine ⟨Y.map fun y p => !(y p), A, B, ?_, hA, hB, ?_⟩
  · simp only [inverterTransform, C17_njobs_map _ n hn]
    rfl
  · rw [List.forall₂_iff_get]
    refine ⟨by rw [hlA, hlB]; simp, ?_⟩
    intro i h₁ h₂ p hp
    have hi : i < Y.length := by rw [hlA, List.length_map] at h₁; exact h₁
    obtain ⟨a, ha, -, ha'⟩ := hpA i (fun p => if Y[i] p then (1 : K) else 0) (by simp [List.getElem?_eq_getElem hi])
    obtain ⟨b, hb, -, hb'⟩ := hpB i (fun p => if !(Y[i] p) then (1 : K) else 0) (by simp [List.getElem?_eq_getElem hi])
    rw [List.getElem?_eq_getElem h₁, Option.some.injEq] at ha
    rw [List.getElem?_eq_getElem h₂, Option.some.injEq] at hb
    simp only [List.get_eq_getElem, ha, hb]
    rw [ha', hb']
    constructor
    · rintro ⟨q, hq, hq0, e⟩ ⟨q', hq', hq0', e'⟩
      have := C58_one_point_per_pixel rows cols rest p q hp hq e
      have := C58_one_point_per_pixel rows cols rest p q' hp hq' e'
      subst_vars
      cases h : Y[i] q' <;> simp [h] at hq0 hq0'
    · intro h
      refine ⟨p, hp, ?_, rfl⟩
      cases hy : Y[i] p with
      | false => simp
      | true => exact absurd ⟨p, hp, by simp [hy], rfl⟩ h

/-- **C136**, ImageToPointCloud after Binarizer: the cloud of a binarized collection with positive maximum consists of the positions of the pixels above the threshold; in particular a smaller threshold gives a
larger cloud. -/
theorem C136_cloud_of_binarized (rows cols : Nat) (rest : List Nat) (n : Nat) (hn : 1 ≤ n) (m t : K) (hm : 0 < m) (X : List (Img K)) :
    ∃ A, toPointCloud n (rows :: cols :: rest) ((binarizerTransform m t n X).map fun y p => if y p then (1 : K) else 0) = .ok A ∧
      List.Forall₂ (fun x a => ∀ q, q ∈ a ↔ ∃ p, IsPixel (rows :: cols :: rest) p ∧ t * m < x p ∧ q = position rows p) X A := by
  obtain ⟨A, hA, hlA, hpA⟩ := C58_points rows cols rest n hn ((binarizerTransform m t n X).map fun y p => if y p then (1 : K) else 0)
  refine ⟨A, hA, ?_⟩
  rw [List.forall₂_iff_get]
  have hlen : (binarizerTransform m t n X).length = X.length := by simp [binarizerTransform, C17_njobs_map _ n hn]
  refine ⟨by rw [hlA, List.length_map, hlen], ?_⟩
  intro i h₁ h₂ q
  obtain ⟨y, hy, hyp⟩ := C55_threshold m t hm n hn X i X[i] (List.getElem?_eq_getElem h₁)
  obtain ⟨a, ha, -, ha'⟩ := hpA i (fun p => if y p then (1 : K) else 0) (by simp [hy])
  rw [List.getElem?_eq_getElem h₂, Option.some.injEq] at ha
  simp only [List.get_eq_getElem, ha]
  rw [ha']
  have : ∀ p, (if y p = true then (1 : K) else 0) ≠ 0 ↔ t * m < X[i] p := by
    intro p
    rw [← hyp p]
    cases y p <;> simp
  simp only [this]

example : toPointCloud 1 [2, 2] ((binarizerTransform (K := ℚ) 4 (1 / 2) 1 [fun p => (p.getD 0 0 : ℚ) + 2 * (p.getD 1 0 : ℚ)]).map fun y p => if y p then (1 : ℚ) else 0) = .ok [[[1, 0]]] := by decide +kernel

end Gtda.Props
