import Verif.Props.CurveFunctions
import Verif.Props.Matching
import Verif.Props.Curves

set_option autoImplicit false
set_option linter.unusedSectionVars false

/-!
# C162: features of landscapes and Betti curves
-/

namespace Gtda.Props.LandscapeFeatures
open Gtda.Py Gtda.Parallel Gtda.Diagrams Gtda.CurveFeatures Gtda.CurveFunctions Gtda.Spec Gtda.Props Gtda.Props.CurveFunctions

variable {Q : Type} [DecidableEq Q]

/-! ### Auxiliary results -/

/-- One layer of the landscape of `D` in dimension `q`. -/
noncomputable def layer (sampling : Q → List ℝ) (D : List (Pt ℝ Q)) (q : Q) (k : Nat) : List ℝ := (sampling q).map fun s => layerAt (pointsIn D q) k s

theorem entry_layer (dims : List Q) (sampling : Q → List ℝ) (nLayers : Nat) (X : List (List (Pt ℝ Q))) (i j k : Nat) (D : List (Pt ℝ Q)) (q : Q)
    (h1 : X[i]? = some D) (h2 : dims[j]? = some q) (hk : k < nLayers) :
    Entry (X.map fun D => (dims.map fun q => (List.range nLayers).map fun k => (sampling q).map fun s => layerAt (pointsIn D q) k s).flatten) i (j * nLayers + k) (layer sampling D q k) := by
  refine ⟨_, by rw [List.getElem?_map, h1]; rfl, ?_⟩
  have := Gtda.getElem?_flatten_uniform (dims.map fun q => (List.range nLayers).map fun k => (sampling q).map fun s => layerAt (pointsIn D q) k s)
    nLayers (by simp) j k hk
  rw [this]
  simp [h2, List.getElem?_range hk, layer]

theorem layers_nonempty (dims : List Q) (sampling : Q → List ℝ) (hs : ∀ q ∈ dims, sampling q ≠ []) (nLayers : Nat) (X : List (List (Pt ℝ Q))) :
    ∀ c ∈ X.map fun D => (dims.map fun q => (List.range nLayers).map fun k => (sampling q).map fun s => layerAt (pointsIn D q) k s).flatten, ∀ x ∈ c, x ≠ [] := by
  intro c hc x hx
  obtain ⟨D, -, rfl⟩ := List.mem_map.1 hc
  obtain ⟨l, hl, hx⟩ := List.mem_flatten.1 hx
  obtain ⟨q, hq, rfl⟩ := List.mem_map.1 hl
  obtain ⟨k, -, rfl⟩ := List.mem_map.1 hx
  exact fun h => hs q hq (List.map_eq_nil_iff.1 h)

theorem layerAt_near (D E : List (Pt ℝ Q)) (s : ℝ) (k : Nat) : |layerAt D k s - layerAt E k s| ≤ matchingDistance ⊤ D E := by
  have e : ∀ D : List (Pt ℝ Q), D.map (fiber s) = D.map fun x => tent x.b x.d s := fun D => List.map_congr_left fun p _ => fiber_eq s p
  refine nth_near_bottleneck D E s k _ _ (fun h => ?_) (fun h => layerAt_beyond D k s h) (fun h => ?_) (fun h => layerAt_beyond E k s h)
  · rw [← e]; exact layerAt_isNth D k s h
  · rw [← e]; exact layerAt_isNth E k s h

theorem layer_within (sampling : Q → List ℝ) (D E : List (Pt ℝ Q)) (q : Q) (k : Nat) : Within (matchingDistance ⊤ (pointsIn D q) (pointsIn E q)) (layer sampling D q k) (layer sampling E q k) := by
  unfold Within layer
  rw [List.forall₂_map_left_iff, List.forall₂_map_right_iff, List.forall₂_same]
  intro s _
  exact layerAt_near _ _ s k

theorem layerAt_le (D : List (Pt ℝ Q)) (k : Nat) (s ℓ : ℝ) (h0 : 0 ≤ ℓ) (h : ∀ p ∈ D, p.d - p.b ≤ ℓ) : layerAt D k s ≤ ℓ / 2 := by
  by_cases hk : k < D.length
  · obtain ⟨hm, -⟩ := layerAt_isNth D k s hk
    obtain ⟨p, hp, e⟩ := List.mem_map.1 hm
    rw [← e]
    unfold fiber
    have := h p hp
    have := abs_nonneg (s - (p.d + p.b) / 2)
    exact max_le (by linarith) (by linarith)
  · rw [layerAt_beyond D k s (not_lt.1 hk)]
    linarith

theorem sum_le_of {x x' : List ℝ} (h : List.Forall₂ (fun a b => a ≤ b) x x') : x.sum ≤ x'.sum := by
  induction h with
  | nil => exact le_rfl
  | cons h _ ih =>
    rw [List.sum_cons, List.sum_cons]
    exact add_le_add h ih

/-- Curves in order have features in order. -/
theorem feature_mono {x x' : List ℝ} (hx : x ≠ []) (h : List.Forall₂ (fun a b => a ≤ b) x x') (s : String) (hs : s ∈ ["max", "min", "mean", "average"]) (v v' : ℝ)
    (hv : IsFeature s x v) (hv' : IsFeature s x' v') : v ≤ v' := by
  have hlen := h.length_eq
  have hpos : (0 : ℝ) < x.length := by exact_mod_cast List.length_pos_of_ne_nil hx
  have left : ∀ {x x' : List ℝ}, List.Forall₂ (fun a b => a ≤ b) x x' → ∀ a ∈ x, ∃ b ∈ x', a ≤ b := by
    intro x x' h
    induction h with
    | nil => exact fun a ha => by cases ha
    | @cons a b _ _ hab _ ih =>
      intro c hc
      rcases List.mem_cons.1 hc with rfl | hc
      · exact ⟨b, List.mem_cons_self .., hab⟩
      · obtain ⟨d, hd, hcd⟩ := ih c hc
        exact ⟨d, List.mem_cons_of_mem _ hd, hcd⟩
  have right : ∀ {x x' : List ℝ}, List.Forall₂ (fun a b => a ≤ b) x x' → ∀ b ∈ x', ∃ a ∈ x, a ≤ b := by
    intro x x' h
    induction h with
    | nil => exact fun a ha => by cases ha
    | @cons a b _ _ hab _ ih =>
      intro c hc
      rcases List.mem_cons.1 hc with rfl | hc
      · exact ⟨a, List.mem_cons_self .., hab⟩
      · obtain ⟨d, hd, hcd⟩ := ih c hc
        exact ⟨d, List.mem_cons_of_mem _ hd, hcd⟩
  have mean : s = "mean" ∨ s = "average" → v ≤ v' := by
    intro hm
    have h1 := hv.2.2.2.2.1 hm
    have h2 := hv'.2.2.2.2.1 hm
    rw [← hlen] at h2
    have := sum_le_of h
    rw [← h1, ← h2] at this
    exact le_of_mul_le_mul_right this hpos
  simp only [List.mem_cons, List.not_mem_nil, or_false] at hs
  rcases hs with hs | hs | hs | hs
  · obtain ⟨b, hb, hab⟩ := left h v (hv.1 hs).1
    exact hab.trans ((hv'.1 hs).2 b hb)
  · obtain ⟨a, ha, hab⟩ := right h v' (hv'.2.1 hs).1
    exact ((hv.2.1 hs).2 a ha).trans hab
  · exact mean (Or.inl hs)
  · exact mean (Or.inr hs)

theorem count_sum (l : List ℝ) (P : ℝ → Prop) [DecidablePred P] : ((l.countP fun s => decide (P s) : Nat) : ℝ) = (l.map fun s => if P s then (1 : ℝ) else 0).sum := by
  induction l with
  | nil => simp
  | cons s l ih =>
    rw [List.countP_cons, List.map_cons, List.sum_cons, ← ih]
    by_cases h : P s
    · simp [h, add_comm]
    · simp [h]

theorem sum_alive (l : List ℝ) (D : List (Pt ℝ Q)) (q : Q) :
    (l.map fun s => ((aliveAt D q s : Nat) : ℝ)).sum = ((pointsIn D q).map fun p => ((l.countP fun s => decide (p.b ≤ s ∧ s < p.d) : Nat) : ℝ)).sum := by
  induction D with
  | nil => simp [aliveAt, pointsIn]
  | cons p D ih =>
    have e : ∀ s, ((aliveAt (p :: D) q s : Nat) : ℝ) = (aliveAt D q s : Nat) + if p.q = q ∧ p.b ≤ s ∧ s < p.d then (1 : ℝ) else 0 := by
      intro s
      unfold aliveAt
      rw [List.countP_cons]
      push_cast
      simp
    simp only [e]
    rw [List.sum_map_add, ih]
    by_cases hq : p.q = q
    · have : pointsIn (p :: D) q = p :: pointsIn D q := by unfold pointsIn; rw [List.filter_cons_of_pos (by simp [hq])]
      rw [this, List.map_cons, List.sum_cons, count_sum, add_comm]
      simp only [hq, true_and]
    · have : pointsIn (p :: D) q = pointsIn D q := by unfold pointsIn; rw [List.filter_cons_of_neg (by simp [hq])]
      rw [this]
      simp [hq]

end Gtda.Props.LandscapeFeatures

namespace Gtda.Props
open Gtda.Py Gtda.Parallel Gtda.Diagrams Gtda.CurveFeatures Gtda.CurveFunctions Gtda.Spec Gtda.Props.CurveFunctions Gtda.Props.LandscapeFeatures

variable {Q : Type} [DecidableEq Q]

/-- **C162.** Each named feature but argmax and argmin of each layer of the landscape of a diagram changes by at most the bottleneck distance in that homology dimension when the diagram is replaced by another one. -/
theorem C162_stable (order : List Nat) (f : String) (hf : f ∈ featureNames) (hf1 : f ≠ "argmax") (hf2 : f ≠ "argmin") (n nLayers nJobs : Nat) (dims : List Q) (sampling : Q → List ℝ)
    (X : List (List (Pt ℝ Q))) (hn : 1 ≤ nJobs) (hd : dims ≠ []) (hX : X ≠ []) (hE : ∀ q ∈ dims, EqualCounts X q) (hs : ∀ q ∈ dims, sampling q ≠ []) :
    ∃ L R, landscapeTransform dims sampling nLayers nJobs X = .ok L ∧ featuresFitTransform recipe order (.one (.str f)) .none n L = .ok R ∧
      ∀ (i i' j k : Nat) D D' q, X[i]? = some D → X[i']? = some D' → dims[j]? = some q → k < nLayers →
        ∃ v v', Entry R i (j * nLayers + k) v ∧ Entry R i' (j * nLayers + k) v' ∧ |v - v'| ≤ matchingDistance ⊤ (pointsIn D q) (pointsIn D' q) := by
  have hne := layers_nonempty dims sampling hs nLayers X
  obtain ⟨R, hR, -, hv⟩ := C161_values order f hf n _ hne
  refine ⟨_, R, landscapeTransform_eq dims sampling nLayers nJobs X hn hd hX hE, hR, fun i i' j k D D' q h1 h1' h2 hk => ?_⟩
  have e := entry_layer dims sampling nLayers X i j k D q h1 h2 hk
  have e' := entry_layer dims sampling nLayers X i' j k D' q h1' h2 hk
  obtain ⟨v, hv1, -⟩ := hv _ _ _ e
  obtain ⟨v', hv1', -⟩ := hv _ _ _ e'
  exact ⟨v, v', hv1, hv1', C161_stable order order f hf hf1 hf2 n n _ _ hne hne R R hR hR _ _ _ _ _ _ v v' _ e e' hv1 hv1' (layer_within sampling D D' q k)⟩

/-- **C162.** Maximum, minimum, mean and average of a layer are between 0 and half the longest lifetime in that dimension, and not larger than those of the layer before. -/
theorem C162_bounds (order : List Nat) (f : String) (hf : f ∈ ["max", "min", "mean", "average"]) (n nLayers nJobs : Nat) (dims : List Q) (sampling : Q → List ℝ)
    (X : List (List (Pt ℝ Q))) (hn : 1 ≤ nJobs) (hd : dims ≠ []) (hX : X ≠ []) (hE : ∀ q ∈ dims, EqualCounts X q) (hs : ∀ q ∈ dims, sampling q ≠ []) :
    ∃ L R, landscapeTransform dims sampling nLayers nJobs X = .ok L ∧ featuresFitTransform recipe order (.one (.str f)) .none n L = .ok R ∧
      ∀ (i j k : Nat) D q, X[i]? = some D → dims[j]? = some q → k < nLayers →
        ∃ v, Entry R i (j * nLayers + k) v ∧ 0 ≤ v ∧ (∀ ℓ, 0 ≤ ℓ → (∀ p ∈ pointsIn D q, p.d - p.b ≤ ℓ) → v ≤ ℓ / 2) ∧
          (k + 1 < nLayers → ∃ v', Entry R i (j * nLayers + (k + 1)) v' ∧ v' ≤ v) := by
  have hne := layers_nonempty dims sampling hs nLayers X
  have hf' : f ∈ featureNames := by
    simp only [List.mem_cons, List.not_mem_nil, or_false] at hf
    rcases hf with rfl | rfl | rfl | rfl <;> decide
  obtain ⟨R, hR, -, hv⟩ := C161_values order f hf' n _ hne
  refine ⟨_, R, landscapeTransform_eq dims sampling nLayers nJobs X hn hd hX hE, hR, fun i j k D q h1 h2 hk => ?_⟩
  have hq := hs q (List.mem_of_getElem? h2)
  obtain ⟨v, hv1, hv2⟩ := hv _ _ _ (entry_layer dims sampling nLayers X i j k D q h1 h2 hk)
  have hx : layer sampling D q k ≠ [] := fun h => hq (List.map_eq_nil_iff.1 h)
  have const : ∀ c : ℝ, IsFeature f ((sampling q).map fun _ => c) c := by
    intro c
    obtain ⟨a, ha⟩ := List.exists_mem_of_ne_nil _ hq
    have hc : c ∈ (sampling q).map fun _ => c := List.mem_map.2 ⟨a, ha, rfl⟩
    simp only [List.mem_cons, List.not_mem_nil, or_false] at hf
    refine ⟨fun _ => ⟨hc, fun b hb => ?_⟩, fun _ => ⟨hc, fun b hb => ?_⟩, ?_, ?_, fun _ => ?_, ?_, ?_⟩
    · obtain ⟨_, _, rfl⟩ := List.mem_map.1 hb; exact le_rfl
    · obtain ⟨_, _, rfl⟩ := List.mem_map.1 hb; exact le_rfl
    · rintro rfl; simp at hf
    · rintro rfl; simp at hf
    · rw [List.map_const', List.sum_replicate, List.length_replicate, nsmul_eq_mul, mul_comm]
    · rintro rfl; simp at hf
    · rintro rfl; simp at hf
  refine ⟨v, hv1, ?_, fun ℓ h0 hℓ => ?_, fun hk' => ?_⟩
  · refine feature_mono (x := (sampling q).map fun _ => (0 : ℝ)) (fun h => hq (List.map_eq_nil_iff.1 h)) ?_ f hf 0 v (const 0) hv2
    unfold layer
    rw [List.forall₂_map_left_iff, List.forall₂_map_right_iff, List.forall₂_same]
    exact fun s _ => layerAt_nonneg _ _ _
  · refine feature_mono (x' := (sampling q).map fun _ => ℓ / 2) hx ?_ f hf v (ℓ / 2) hv2 (const (ℓ / 2))
    unfold layer
    rw [List.forall₂_map_left_iff, List.forall₂_map_right_iff, List.forall₂_same]
    exact fun s _ => layerAt_le _ k s ℓ h0 hℓ
  · obtain ⟨v', hv1', hv2'⟩ := hv _ _ _ (entry_layer dims sampling nLayers X i j (k + 1) D q h1 h2 hk')
    refine ⟨v', hv1', feature_mono (fun h => hq (List.map_eq_nil_iff.1 h)) ?_ f hf v' v hv2' hv2⟩
    unfold layer
    rw [List.forall₂_map_left_iff, List.forall₂_map_right_iff, List.forall₂_same]
    exact fun s _ => layerAt_succ_le _ _ _

/-- The entries of a collection of Betti curves as real numbers. -/
noncomputable def realCurves (B : List (List (List Nat))) : List (List (List ℝ)) := B.map fun c => c.map fun x => x.map fun a : Nat => (a : ℝ)

/-- **C162.** The mean of a Betti curve, times the number of sampled values, is the sum over the points of the diagram in that dimension of the numbers of sampled values at which they are alive. The maximum is at most the
number of points with positive lifetime. -/
theorem C162_betti (order : List Nat) (n nJobs : Nat) (dims : List Q) (sampling : Q → List ℝ) (X : List (List (Pt ℝ Q))) (hn : 1 ≤ nJobs) (hd : dims ≠ []) (hX : X ≠ [])
    (hE : ∀ q ∈ dims, EqualCounts X q) (hs : ∀ q ∈ dims, sampling q ≠ []) :
    ∃ B R R', bettiTransform dims sampling nJobs X = .ok B ∧ featuresFitTransform recipe order (.one (.str "mean")) .none n (realCurves B) = .ok R ∧
      featuresFitTransform recipe order (.one (.str "max")) .none n (realCurves B) = .ok R' ∧
      ∀ (i j : Nat) D q, X[i]? = some D → dims[j]? = some q → ∃ v m, Entry R i j v ∧ Entry R' i j m ∧
        v * (sampling q).length = ((pointsIn D q).map fun p => (((sampling q).countP fun s => decide (p.b ≤ s ∧ s < p.d) : Nat) : ℝ)).sum ∧
        m ≤ ((pointsIn D q).filter fun p => decide (p.b < p.d)).length := by
  have e := bettiTransform_eq dims sampling nJobs X hn hd hX hE
  have hne : ∀ c ∈ realCurves (X.map fun D => dims.map fun q => (sampling q).map fun s => aliveAt D q s), ∀ x ∈ c, x ≠ [] := by
    intro c hc x hx
    unfold realCurves at hc
    rw [List.map_map] at hc
    obtain ⟨D, -, rfl⟩ := List.mem_map.1 hc
    simp only [Function.comp_apply, List.map_map] at hx
    obtain ⟨q, hq, rfl⟩ := List.mem_map.1 hx
    intro h
    simp only [Function.comp_apply, List.map_eq_nil_iff] at h
    exact hs q hq h
  obtain ⟨R, hR, -, hv⟩ := C161_values order "mean" (by decide) n _ hne
  obtain ⟨R', hR', -, hv'⟩ := C161_values order "max" (by decide) n _ hne
  refine ⟨_, R, R', e, hR, hR', fun i j D q h1 h2 => ?_⟩
  have he : Entry (realCurves (X.map fun D => dims.map fun q => (sampling q).map fun s => aliveAt D q s)) i j ((sampling q).map fun s => ((aliveAt D q s : Nat) : ℝ)) := by
    refine ⟨(dims.map fun q => (sampling q).map fun s => aliveAt D q s).map fun x => x.map fun a : Nat => (a : ℝ), ?_, ?_⟩
    · unfold realCurves
      rw [List.getElem?_map, List.getElem?_map, h1]
      rfl
    · rw [List.getElem?_map, List.getElem?_map, h2]
      simp
  obtain ⟨v, hv1, hv2⟩ := hv _ _ _ he
  obtain ⟨m, hm1, hm2⟩ := hv' _ _ _ he
  refine ⟨v, m, hv1, hm1, ?_, ?_⟩
  · have := hv2.2.2.2.2.1 (Or.inl rfl)
    rwa [List.length_map, sum_alive] at this
  · obtain ⟨s, -, rfl⟩ := List.mem_map.1 (hm2.1 rfl).1
    have : aliveAt D q s ≤ ((pointsIn D q).filter fun p => decide (p.b < p.d)).length := by
      unfold aliveAt pointsIn
      rw [List.filter_filter, ← List.countP_eq_length_filter]
      refine List.countP_mono_left fun p _ hp => ?_
      have hp := of_decide_eq_true hp
      simp [hp.1, lt_of_le_of_lt hp.2.1 hp.2.2]
    exact_mod_cast this

/-- Two diagrams with one point in dimension 0 and two in dimension 1 meet the hypotheses. -/
example : (∀ q ∈ [0, 1], EqualCounts ([[⟨0, 4, 0⟩, ⟨1, 6, 1⟩, ⟨2, 3, 1⟩], [⟨1, 2, 1⟩, ⟨0, 5, 0⟩, ⟨3, 3, 1⟩]] : List (List (Pt ℝ Nat))) q) ∧
    ∀ q ∈ [0, 1], (fun _ : Nat => ([0, 1, 2] : List ℝ)) q ≠ [] := by
  refine ⟨?_, fun q _ => by simp⟩
  intro q hq D hD D' hD'
  simp only [List.mem_cons, List.not_mem_nil, or_false] at hq hD hD'
  rcases hq with rfl | rfl <;> rcases hD with rfl | rfl <;> rcases hD' with rfl | rfl <;> simp [pointsIn]

/-- The bounds are reached: the point with birth 0 and death 4, sampled at 1, 2 and 3, gives a layer with the maximum 2, half the lifetime. -/
example : layer (fun _ : Nat => ([1, 2, 3] : List ℝ)) [⟨0, 4, 0⟩] 0 0 = [1, 2, 1] := by
  have h : ∀ s : ℝ, layerAt ([⟨0, 4, 0⟩] : List (Pt ℝ Nat)) 0 s = max (-|s - 2| + 2) 0 := by
    intro s
    obtain ⟨hm, -⟩ := layerAt_isNth ([⟨0, 4, 0⟩] : List (Pt ℝ Nat)) 0 s (by simp)
    simp only [List.map_cons, List.map_nil, List.mem_singleton] at hm
    rw [hm]
    unfold fiber
    norm_num
  have hp : pointsIn ([⟨0, 4, 0⟩] : List (Pt ℝ Nat)) 0 = [⟨0, 4, 0⟩] := by simp [pointsIn]
  unfold layer
  rw [hp]
  simp only [List.map_cons, List.map_nil, h]
  norm_num

end Gtda.Props
