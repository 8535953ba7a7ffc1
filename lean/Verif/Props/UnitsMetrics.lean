import Verif.Props.Units
import Verif.Props.ScalerObject
import Verif.Spec.Matching
import Mathlib.Data.Real.Pointwise

set_option autoImplicit false
set_option linter.unusedSectionVars false

/-!
# C130: distances, amplitudes and scalers in other units
-/

namespace Gtda.Props.UnitsMetrics
open Gtda.Py Gtda.Parallel Gtda.Diagrams Gtda.Vectorizers Gtda.DiagramMetrics Gtda.Spec.Units Gtda.Props.Units

theorem concatAxis1_map {α β : Type} (f : α → β) (n : Nat) (l : List (List (List α))) :
    concatAxis1 n (l.map (List.map (List.map f))) = Except.map (List.map (List.map f)) (concatAxis1 n l) := by
  cases l with
  | nil => rfl
  | cons M t =>
    show Except.ok _ = Except.ok _
    congr 1
    generalize M :: t = l
    induction l with
    | nil => simp
    | cons M t ih =>
      rw [List.map_cons, List.foldr_cons, List.foldr_cons, ih, List.zipWith_map, List.map_zipWith]
      simp

theorem stackAxis2_map {α β : Type} (f : α → β) (n m : Nat) (l : List (List (List α))) :
    stackAxis2 n m (l.map (List.map (List.map f))) = (stackAxis2 n m l).map (List.map (List.map f)) := by
  unfold stackAxis2
  rw [List.map_map]
  refine List.map_congr_left fun i _ => ?_
  simp only [Function.comp_apply, List.map_map]
  refine List.map_congr_left fun k _ => ?_
  simp only [Function.comp_apply, List.filterMap_map, List.map_filterMap, List.getElem?_map]
  refine List.filterMap_congr fun r _ => ?_
  cases h : r[i]? with
  | none => simp [h]
  | some x => simp [h]

theorem parallelPairwise_natural {K Q R R' : Type} [DecidableEq Q] (V : Pt K Q → Prop) (g : Pt K Q → Pt K Q) (hg : ∀ p, (g p).q = p.q) (h : R → R')
    (F : Q → List (List (Pt K Q)) → List (List (Pt K Q)) → PyM (List (List R))) (F' : Q → List (List (Pt K Q)) → List (List (Pt K Q)) → PyM (List (List R'))) (dims : List Q) (nJobs : Nat)
    (X1 X2 : List (List (Pt K Q))) (h1 : ∀ D ∈ X1, ∀ p ∈ D, V p) (h2 : ∀ D ∈ X2, ∀ p ∈ D, V p)
    (hF : ∀ q ∈ dims, ∀ Y1 Y2 : List (List (Pt K Q)), (∀ D ∈ Y1, ∀ p ∈ D, V p) → (∀ D ∈ Y2, ∀ p ∈ D, V p) →
      F' q (Y1.map (List.map g)) (Y2.map (List.map g)) = Except.map (List.map (List.map h)) (F q Y1 Y2)) :
    parallelPairwise F' (X1.map (List.map g)) (X2.map (List.map g)) dims nJobs = Except.map (List.map (List.map (List.map h))) (parallelPairwise F X1 X2 dims nJobs) := by
  unfold parallelPairwise
  dsimp only
  rw [List.length_map, List.length_map]
  have e1 : (perDimTasks dims nJobs X2.length).mapM (pairwiseTask F' (X1.map (List.map g)) (X2.map (List.map g))) =
      Except.map (List.map (List.map (List.map h))) ((perDimTasks dims nJobs X2.length).mapM (pairwiseTask F X1 X2)) := by
    have := mapM_natural (pairwiseTask F X1 X2) (pairwiseTask F' (X1.map (List.map g)) (X2.map (List.map g))) id (List.map (List.map h)) (perDimTasks dims nJobs X2.length) ?_
    · rwa [List.map_id] at this
    · intro t ht
      have hq : t.1 ∈ dims := by
        unfold perDimTasks at ht
        rw [List.mem_flatMap] at ht
        obtain ⟨q, hq, ht⟩ := ht
        rw [List.mem_map] at ht
        obtain ⟨s, -, rfl⟩ := ht
        exact hq
      unfold pairwiseTask
      simp only [id]
      rw [subdiagrams_natural g hg, map_bind, bind_map]
      cases hs : subdiagrams X1 [t.1] with
      | error e => rfl
      | ok Y1 =>
        rw [ok_bind, ok_bind, pySlice_map, subdiagrams_natural g hg, map_bind, bind_map]
        cases hs2 : subdiagrams (pySlice (some (t.2.1 : Int)) (some (t.2.2 : Int)) 1 X2) [t.1] with
        | error e => rfl
        | ok Y2 =>
          rw [ok_bind, ok_bind]
          refine hF t.1 hq Y1 Y2 (fun D hD p hp => ?_) fun D hD p hp => ?_
          · obtain ⟨D', hD', hp'⟩ := mem_subdiagrams _ _ _ hs D hD p hp
            exact h1 D' hD' p hp'
          · obtain ⟨D', hD', hp'⟩ := mem_subdiagrams _ _ _ hs2 D hD p hp
            exact h2 D' (mem_pySlice _ _ _ _ _ hD') p hp'
  rw [e1, map_bind, bind_map]
  congr 1
  funext M
  rw [concatAxis1_map, map_bind, bind_map]
  congr 1
  funext J
  show Except.ok _ = Except.ok _
  congr 1
  rw [← stackAxis2_map, List.map_map]
  congr 1
  refine List.map_congr_left fun i _ => ?_
  simp only [Function.comp_apply, List.map_map]
  refine List.map_congr_left fun row _ => ?_
  exact pySlice_map _ _ _ _ _

section
variable {K Q : Type} [Field K] [LinearOrder K] [IsStrictOrderedRing K]

theorem mapM_option {α β : Type} (g : α → β) (v : List (Option α)) : (v.map fun x => x.map g).mapM id = (v.mapM id).map (List.map g) := by
  induction v with
  | nil => rfl
  | cons x t ih =>
    rw [List.map_cons, List.mapM_cons, List.mapM_cons, ih]
    cases x with
    | none => rfl
    | some x => cases t.mapM id <;> rfl

theorem mv_inj {a : K} (ha : 0 < a) (c : K) : Function.Injective (mv a c : Pt K Q → Pt K Q) := by
  intro p q h
  obtain ⟨b, d, k⟩ := p
  obtain ⟨b', d', k'⟩ := q
  simp only [mv, Pt.mk.injEq] at h
  rw [(aff_eq ha c b b').1 h.1, (aff_eq ha c d d').1 h.2.1, h.2.2]

theorem squarePdist_map {V V' R R' : Type} (g : V → V') (h : R → R') (z : R) (z' : R') (hz : h z = z') (d : V → V → R) (d' : V' → V' → R') (hd : ∀ x y, d' (g x) (g y) = h (d x y))
    (A : List V) : squarePdist z' d' (A.map g) = (squarePdist z d A).map (List.map h) := by
  unfold squarePdist
  rw [List.length_map, List.map_map]
  refine List.map_congr_left fun i _ => ?_
  simp only [Function.comp_apply, List.map_filterMap]
  refine List.filterMap_congr fun j _ => ?_
  simp only [List.getElem?_map]
  cases A[i]? with
  | none => rfl
  | some x =>
    cases A[j]? with
    | none => rfl
    | some y =>
      show some _ = some _
      congr 1
      by_cases h1 : i = j
      · rw [if_pos h1, if_pos h1, hz]
      · rw [if_neg h1, if_neg h1]
        by_cases h2 : i < j
        · rw [if_pos h2, if_pos h2, hd]
        · rw [if_neg h2, if_neg h2, hd]

/-- The factor of the vectors. -/
def vecFactor (metric : Metric) (a : K) : K :=
  match metric with
  | .betti => 1
  | .landscape => a
  | .silhouette => a
  | .heat => (a ^ 2)⁻¹
  | .image => (a ^ 2)⁻¹
  | _ => 1

/-- The factor of the size of a cell. -/
def cellFactor (pow : K → K → K) (metric : Metric) (p : Option K) (a : K) : K :=
  if metric = .image then pow a (powerOf metric p) * pow a (powerOf metric p) else pow a (powerOf metric p)

theorem powerOf_eq (metric : Metric) (p : Option K) : powerOf metric p = exponentOf metric p := by
  cases p <;> rfl

theorem unitFactor_eq (pow : K → K → K) (metric : Metric) (h : metric ≠ .bottleneck ∧ metric ≠ .wasserstein) (p : Option K) (a : K) :
    unitFactor pow metric p a = vecFactor metric a * cellFactor pow metric p a := by
  cases metric with
  | bottleneck => exact absurd rfl h.1
  | wasserstein => exact absurd rfl h.2
  | betti => simp [unitFactor, vecFactor, cellFactor, powerOf_eq]
  | landscape => simp [unitFactor, vecFactor, cellFactor, powerOf_eq]
  | silhouette => simp [unitFactor, vecFactor, cellFactor, powerOf_eq]
  | heat => simp [unitFactor, vecFactor, cellFactor, powerOf_eq]
  | image => simp [unitFactor, vecFactor, cellFactor, powerOf_eq]

theorem vecFactor_pos (metric : Metric) {a : K} (ha : 0 < a) : 0 < vecFactor metric a := by
  cases metric <;> simp only [vecFactor] <;> positivity

theorem factor_moved (E : Engine K Q) (metric : Metric) (p : Option K) {a : K} (hE : Scales E a) (c : K) (b : Bool) (ax : Axes K) :
    factor E metric p (mvAxes b a c ax) = (factor E metric p ax).map fun x => cellFactor E.pow metric p a * x := by
  obtain ⟨⟨s₀, st₀⟩, ⟨s₁, st₁⟩⟩ := ax
  by_cases hm : metric = .image
  · subst hm
    simp only [factor, mvAxes, mvAxis]
    cases st₀ with
    | none => rfl
    | some x =>
      cases st₁ with
      | none => rfl
      | some y =>
        show some _ = some _
        congr 1
        rw [cellFactor, if_pos rfl, show a * x * (a * y) = a * (a * (x * y)) by ring, (hE.pow _).2, (hE.pow _).2]
        exact (mul_assoc _ _ _).symm
  · have : ∀ ax : Axes K, factor E metric p ax = ax.1.2.map fun s => E.pow s (powerOf metric p) := by
      intro ax
      cases metric <;> first | rfl | exact absurd rfl hm
    rw [this, this, cellFactor, if_neg hm]
    simp only [mvAxes, mvAxis]
    cases st₀ with
    | none => rfl
    | some x =>
      simp only [Option.map_some]
      rw [(hE.pow _).2]

theorem liftNan_times (E : Engine K Q) (p : Option K) (hp : ∀ x, p = some x → 0 < x) {a : K} (hE : Scales E a) (s : K) (hs : 0 ≤ s) (v : List (Option K)) :
    liftNan (E.norm p) (v.map fun x => x.map fun y => s * y) = (liftNan (E.norm p) v).map fun x => s * x := by
  unfold liftNan
  rw [mapM_option]
  cases v.mapM id with
  | none => rfl
  | some w =>
    simp only [Option.map_some]
    rw [hE.norm p w s hp hs]

theorem vecDist_times (E : Engine K Q) (p : Option K) (hp : ∀ x, p = some x → 0 < x) {a : K} (hE : Scales E a) (s k : K) (hs : 0 ≤ s) (f : Option K) (u v : List (Option K)) :
    vecDist E p (f.map fun x => k * x) (u.map fun x => x.map fun y => s * y) (v.map fun x => x.map fun y => s * y) = (vecDist E p f u v).map fun x => s * k * x := by
  unfold vecDist liftNan₂
  cases f with
  | none => rfl
  | some c =>
    simp only [Option.map_some, Option.bind_some]
    rw [mapM_option, mapM_option]
    cases u.mapM id with
    | none => rfl
    | some x =>
      cases v.mapM id with
      | none => rfl
      | some y =>
        show some _ = some _
        congr 1
        have : List.zipWith (· - ·) (x.map fun z => s * z) (y.map fun z => s * z) = (List.zipWith (· - ·) x y).map fun z => s * z := by
          rw [List.zipWith_map, List.map_zipWith]
          congr 1
          funext z w
          ring
        rw [this, hE.norm p _ s hp hs]
        ring

variable [FloorRing K]

theorem vecs_moved (E : Engine K Q) (metric : Metric) (h : metric ≠ .bottleneck ∧ metric ≠ .wasserstein) {a : K} (ha : 0 < a) (hE : Scales E a) (c : K) (m : MParams K) (ax : Axes K)
    (Y : List (List (Pt K Q))) (hY : ∀ D ∈ Y, ∀ p ∈ D, p.b ≤ p.d) :
    vecs E metric (movedMP a metric m) (mvAxes (decide (metric = .image)) a c ax) (Y.map (List.map (mv a c))) =
      Except.map (List.map (List.map fun x => x.map fun y => vecFactor metric a * y)) (vecs E metric m ax Y) := by
  have flat : ∀ (s : K) (R : List (List (List (Option K)))), (R.map (List.map (List.map fun x => x.map fun y => s * y))).map List.flatten =
      (R.map List.flatten).map (List.map fun x => x.map fun y => s * y) := by
    intro s R
    rw [List.map_map, List.map_map]
    refine List.map_congr_left fun r _ => ?_
    simp only [Function.comp_apply, List.map_flatten]
  cases metric with
  | bottleneck => exact absurd rfl h.1
  | wasserstein => exact absurd rfl h.2
  | betti =>
    show Except.ok _ = Except.ok _
    congr 1
    simp only [mvAxes, mvAxis, bettiCurves_moved ha, List.map_map, vecFactor]
    refine List.map_congr_left fun r _ => ?_
    simp [Function.comp_def]
  | landscape =>
    show Except.ok _ = Except.ok _
    congr 1
    have hm : movedMP a .landscape m = m := by unfold movedMP; rw [if_neg (by decide)]
    simp only [mvAxes, mvAxis, hm, landscapes_moved ha, List.map_map, vecFactor]
    refine List.map_congr_left fun r _ => ?_
    simp [Function.comp_def, List.map_flatten]
  | heat =>
    have hm : (movedMP a .heat m).sigma.getD (1 / 10) = a * m.sigma.getD (1 / 10) := by unfold movedMP; rw [if_pos (.inl rfl)]; rfl
    simp only [vecs]
    have hax : (mvAxes (decide (Metric.heat = .image)) a c ax).1 = mvAxis a c ax.1 := rfl
    rw [hm, hax, mapM_natural (heatItem E.toEngine (m.sigma.getD (1 / 10)) ax.1) _ _ _ _ fun D _ => heatItem_moved ha c E.toEngine (m.sigma.getD (1 / 10)) ax.1 D, map_bind, bind_map]
    congr 1
    funext R
    show Except.ok _ = Except.ok _
    rw [flat]
    rfl
  | image =>
    have hm : (movedMP a .image m).sigma.getD (1 / 10) = a * m.sigma.getD (1 / 10) := by unfold movedMP; rw [if_pos (.inr rfl)]; rfl
    have hdec : decide (Metric.image = .image) = true := rfl
    rw [hdec]
    have hw : (mvAxes true a c ax).2.1.map (((movedMP a .image m).weight.getD none).getD fun _ => 1) = ax.2.1.map ((m.weight.getD none).getD fun _ => 1) := by
      simp only [mvAxes, mvAxis, c1, if_true, List.map_map]
      refine List.map_congr_left fun x _ => ?_
      unfold movedMP
      rw [if_pos (.inr rfl)]
      cases m.weight with
      | none => rfl
      | some w =>
        cases w with
        | none => rfl
        | some w =>
          simp only [Function.comp_apply, Option.map_some, Option.getD_some, add_zero]
          rw [mul_div_cancel_left₀ _ ha.ne']
    simp only [vecs]
    rw [hm, hw, mapM_natural (imageItem E.toEngine (m.sigma.getD (1 / 10)) ax (ax.2.1.map ((m.weight.getD none).getD fun _ => 1))) _ _ _ _
      fun D _ => imageItem_moved ha c E.toEngine (m.sigma.getD (1 / 10)) ax _ D, map_bind, bind_map]
    congr 1
    funext R
    show Except.ok _ = Except.ok _
    rw [flat]
    rfl
  | silhouette =>
    have hm : movedMP a .silhouette m = m := by unfold movedMP; rw [if_neg (by decide)]
    simp only [vecs]
    rw [hm]
    exact mapM_natural _ _ _ _ _ fun D hD => silhouetteOne_moved ha c (fun x => E.pow x (m.power.getD 1)) _ ⟨(hE.pow _).1.ne', fun x _ => (hE.pow _).2 x⟩ ax.1.1 D (hY D hD)

theorem landscapeMetric_moved [DecidableEq Q] (E : Engine K Q) {a : K} (ha : 0 < a) (hE : Scales E a) (c : K) (p : Option K) (hp : ∀ x, p = some x → 0 < x) (f : Option K) (k : K) (s : List K)
    (n : Nat) (Y1 Y2 : List (List (Pt K Q))) :
    landscapeMetric E p (f.map fun x => k * x) (s.map fun x => a * x + c) n (Y1.map (List.map (mv a c))) (Y2.map (List.map (mv a c))) =
      (landscapeMetric E p f s n Y1 Y2).map (List.map fun x => x.map fun y => a * k * y) := by
  have hl : ∀ (Y : List (List (Pt K Q))), ((Y.map (List.map (mv a c))).headD []).length = (Y.headD []).length := by intro Y; cases Y <;> simp
  have hfl : ∀ (Y : List (List (Pt K Q))) m, flatLandscapes (Y.map (List.map (mv a c))) (s.map fun x => a * x + c) m = (flatLandscapes Y s m).map (List.map fun x => a * x) := by
    intro Y m
    unfold flatLandscapes
    rw [landscapes_moved ha, List.map_map, List.map_map]
    refine List.map_congr_left fun r _ => ?_
    simp only [Function.comp_apply, List.map_flatten]
  have hd : ∀ u v : List K, vecDist E p (f.map fun x => k * x) ((u.map fun x => a * x).map some) ((v.map fun x => a * x).map some) =
      (vecDist E p f (u.map some) (v.map some)).map fun x => a * k * x := by
    intro u v
    rw [← vecDist_times E p hp hE a k ha.le]
    congr 1 <;> simp [Function.comp_def]
  have hinj : Y1.map (List.map (mv a c)) = Y2.map (List.map (mv a c)) ↔ Y1 = Y2 :=
    (List.map_injective_iff.2 (List.map_injective_iff.2 (mv_inj ha c))).eq_iff
  unfold landscapeMetric
  dsimp only
  rw [hl, hl, hfl, hfl, hfl]
  by_cases h : Y1 = Y2
  · rw [if_pos h, if_pos (hinj.2 h)]
    exact squarePdist_map (List.map fun x => a * x) (fun x => x.map fun y => a * k * y) (some 0) (some 0) (by simp) (fun u v => vecDist E p f (u.map some) (v.map some))
      (fun u v => vecDist E p (f.map fun x => k * x) (u.map some) (v.map some)) hd _
  · rw [if_neg h, if_neg (fun h' => h (hinj.1 h'))]
    generalize flatLandscapes Y1 s _ = U
    generalize flatLandscapes Y2 s _ = W
    rw [List.map_map, List.map_map]
    refine List.map_congr_left fun u _ => ?_
    refine List.map_map.trans ((List.map_congr_left fun v _ => hd u v).trans ?_)
    simp only [Function.comp_apply, List.map_map]
    rfl

theorem batchDistances_moved [DecidableEq Q] {a : K} (ha : 0 < a) (c : K) (s t : K) (vec vec' : List (List (Pt K Q)) → PyM (List (List (Option K)))) (d d' : List (Option K) → List (Option K) → Option K)
    (Y1 Y2 : List (List (Pt K Q))) (h1 : vec' (Y1.map (List.map (mv a c))) = Except.map (List.map (List.map fun x => x.map fun y => s * y)) (vec Y1))
    (h2 : vec' (Y2.map (List.map (mv a c))) = Except.map (List.map (List.map fun x => x.map fun y => s * y)) (vec Y2))
    (hd : ∀ u v, d' (u.map fun x => x.map fun y => s * y) (v.map fun x => x.map fun y => s * y) = (d u v).map fun x => t * x) :
    batchDistances (some 0) vec' d' (Y1.map (List.map (mv a c))) (Y2.map (List.map (mv a c))) = Except.map (List.map (List.map fun x => x.map fun y => t * y)) (batchDistances (some 0) vec d Y1 Y2) := by
  have hinj : Y1.map (List.map (mv a c)) = Y2.map (List.map (mv a c)) ↔ Y1 = Y2 :=
    (List.map_injective_iff.2 (List.map_injective_iff.2 (mv_inj ha c))).eq_iff
  unfold batchDistances
  rw [h1, h2, map_bind, bind_map]
  congr 1
  funext v1
  by_cases h : Y1 = Y2
  · rw [if_pos h, if_pos (hinj.2 h)]
    show Except.ok _ = Except.ok _
    congr 1
    exact squarePdist_map _ (fun x => x.map fun y => t * y) (some 0) (some 0) (by simp) _ _ hd _
  · rw [if_neg h, if_neg (fun h' => h (hinj.1 h')), map_bind, bind_map]
    congr 1
    funext v2
    show Except.ok _ = Except.ok _
    congr 1
    simp only [List.map_map]
    refine List.map_congr_left fun u _ => ?_
    simp only [Function.comp_apply, List.map_map]
    refine List.map_congr_left fun v _ => ?_
    exact hd u v

theorem matchingDistances_moved {a : K} (ha : 0 < a) (c : K) (eng : List (Pt K Q) → List (Pt K Q) → K) (he : ∀ D D', eng (moved a c D) (moved a c D') = a * eng D D') (Y1 Y2 : List (List (Pt K Q))) :
    matchingDistances eng (Y1.map (List.map (mv a c))) (Y2.map (List.map (mv a c))) = (matchingDistances eng Y1 Y2).map (List.map fun x => a * x) := by
  have hf : ∀ D : List (Pt K Q), (D.map (mv a c)).filter (fun p => decide (p.b ≠ p.d)) = moved a c (D.filter fun p => decide (p.b ≠ p.d)) := by
    intro D
    rw [List.filter_map]
    show _ = List.map (mv a c) _
    congr 1
    refine List.filter_congr fun p _ => ?_
    simp only [Function.comp_apply, mv, ne_eq, aff_eq ha]
  unfold matchingDistances
  simp only [List.map_map]
  refine List.map_congr_left fun D _ => ?_
  simp only [Function.comp_apply, List.map_map]
  refine List.map_congr_left fun D' _ => ?_
  simp only [Function.comp_apply]
  rw [hf, hf, he]

/-- The effective parameters in other units. -/
def mvEff (a c : K) (metric : Metric) (eff : Eff K Q) : Eff K Q :=
  ⟨movedMP a metric eff.mp, eff.samplings.map fun s => (s.1, s.2.map fun x => (x.1, mvAxes (decide (metric = .image)) a c x.2))⟩

theorem axesFor_moved [DecidableEq Q] (metric : Metric) (a c : K) (eff : Eff K Q) (q : Q) :
    axesFor metric (mvEff a c metric eff) q = Except.map (mvAxes (decide (metric = .image)) a c) (axesFor metric eff q) := by
  unfold axesFor mvEff
  cases eff.samplings with
  | none => rfl
  | some s =>
    simp only [Option.map_some]
    by_cases h : metric.isCurve = s.1.isCurve ∧ (metric.isCurve = true ∨ s.1 = .image)
    · rw [if_pos h, if_pos h]
      exact entryOf_map _ (some s.2) q
    · rw [if_neg h, if_neg h]; rfl

theorem mp_p (a : K) (metric : Metric) (m : MParams K) : (movedMP a metric m).p = m.p ∧ (movedMP a metric m).delta = m.delta ∧ (movedMP a metric m).nLayers = m.nLayers ∧
    (movedMP a metric m).nBins = m.nBins := by
  unfold movedMP
  by_cases h : metric = .heat ∨ metric = .image
  · rw [if_pos h]; exact ⟨rfl, rfl, rfl, rfl⟩
  · rw [if_neg h]; exact ⟨rfl, rfl, rfl, rfl⟩

theorem metricFn_moved [LinearOrder Q] (E : Engine K Q) (metric : Metric) {a : K} (ha : 0 < a) (hE : Scales E a) (c : K) (eff : Eff K Q) (hp : ∀ x, eff.mp.p = some (some x) → 0 < x) (q : Q)
    (Y1 Y2 : List (List (Pt K Q))) (h1 : ∀ D ∈ Y1, ∀ p ∈ D, p.b ≤ p.d) (h2 : ∀ D ∈ Y2, ∀ p ∈ D, p.b ≤ p.d) :
    metricFn E metric (mvEff a c metric eff) q (Y1.map (List.map (mv a c))) (Y2.map (List.map (mv a c))) =
      Except.map (List.map (List.map fun x => x.map fun y => unitFactor E.pow metric (eff.mp.p.getD (some 2)) a * y)) (metricFn E metric eff q Y1 Y2) := by
  have hpp : ∀ x, eff.mp.p.getD (some 2) = some x → 0 < x := by
    intro x hx
    cases h : eff.mp.p with
    | none => rw [h] at hx; simp only [Option.getD_none, Option.some.injEq] at hx; rw [← hx]; exact two_pos
    | some y => rw [h] at hx; simp only [Option.getD_some] at hx; exact hp x (by rw [h, hx])
  have hpe : (mvEff a c metric eff).mp.p = eff.mp.p := (mp_p a metric eff.mp).1
  have hde : (mvEff a c metric eff).mp.delta = eff.mp.delta := (mp_p a metric eff.mp).2.1
  have hne : (mvEff a c metric eff).mp.nLayers = eff.mp.nLayers := (mp_p a metric eff.mp).2.2.1
  by_cases hb : metric = .bottleneck
  · subst hb
    simp only [metricFn, hde]
    show Except.ok _ = Except.ok _
    rw [matchingDistances_moved ha c _ (hE.bottleneck c _)]
    simp [unitFactor, Function.comp_def]
  by_cases hw : metric = .wasserstein
  · subst hw
    simp only [metricFn, hde, hpe]
    show Except.ok _ = Except.ok _
    rw [matchingDistances_moved ha c _ (hE.wasserstein c _ _)]
    simp [unitFactor, Function.comp_def]
  by_cases hl : metric = .landscape
  · subst hl
    simp only [metricFn, hne, hpe]
    rw [axesFor_moved, map_bind, bind_map]
    congr 1
    funext ax
    show Except.ok _ = Except.ok _
    rw [factor_moved E .landscape _ hE]
    congr 1
    exact landscapeMetric_moved E ha hE c _ hpp _ _ _ _ _ _
  have hform : ∀ eff : Eff K Q, ∀ Y1 Y2, metricFn E metric eff q Y1 Y2 = (do
      let ax ← axesFor metric eff q
      batchDistances (some 0) (vecs E metric eff.mp ax) (vecDist E (eff.mp.p.getD (some 2)) (factor E metric (eff.mp.p.getD (some 2)) ax)) Y1 Y2) := by
    intro eff Y1 Y2
    cases metric <;> first | rfl | contradiction
  rw [hform, hform, axesFor_moved, map_bind, bind_map, hpe]
  congr 1
  funext ax
  rw [factor_moved E metric _ hE, unitFactor_eq _ _ ⟨hb, hw⟩]
  exact batchDistances_moved ha c (vecFactor metric a) _ _ _ _ _ Y1 Y2 (vecs_moved E metric ⟨hb, hw⟩ ha hE c eff.mp ax Y1 h1) (vecs_moved E metric ⟨hb, hw⟩ ha hE c eff.mp ax Y2 h2)
    fun u v => vecDist_times E _ hpp hE _ _ (vecFactor_pos metric ha).le _ u v

theorem amplitudeFn_moved [LinearOrder Q] (E : Engine K Q) (metric : Metric) {a : K} (ha : 0 < a) (hE : Scales E a) (c : K) (eff : Eff K Q) (hp : ∀ x, eff.mp.p = some (some x) → 0 < x) (q : Q)
    (Y : List (List (Pt K Q))) (h1 : ∀ D ∈ Y, ∀ p ∈ D, p.b ≤ p.d) :
    amplitudeFn E metric (mvEff a c metric eff) q (Y.map (List.map (mv a c))) =
      Except.map (List.map fun x => x.map fun y => unitFactor E.pow metric (eff.mp.p.getD (some 2)) a * y) (amplitudeFn E metric eff q Y) := by
  have hpp : ∀ x, eff.mp.p.getD (some 2) = some x → 0 < x := by
    intro x hx
    cases h : eff.mp.p with
    | none => rw [h] at hx; simp only [Option.getD_none, Option.some.injEq] at hx; rw [← hx]; exact two_pos
    | some y => rw [h] at hx; simp only [Option.getD_some] at hx; exact hp x (by rw [h, hx])
  have hpe : (mvEff a c metric eff).mp.p = eff.mp.p := (mp_p a metric eff.mp).1
  by_cases hb : metric = .bottleneck
  · subst hb
    simp only [amplitudeFn]
    have : bottleneckAmplitudes (Y.map (List.map (mv a c))) = Except.map (List.map fun x => a * x) (bottleneckAmplitudes Y) := by
      unfold bottleneckAmplitudes
      refine mapM_natural _ _ _ _ _ fun D _ => ?_
      rw [← npMax_mul ha, List.map_map, List.map_map]
      congr 1
      refine List.map_congr_left fun p _ => ?_
      simp only [Function.comp_apply, life_moved]
      rw [mul_div_assoc, abs_mul, abs_of_pos ha]
    rw [this, map_bind, bind_map]
    congr 1
    funext r
    show Except.ok _ = Except.ok _
    simp [unitFactor, Function.comp_def]
  by_cases hw : metric = .wasserstein
  · subst hw
    simp only [amplitudeFn, hpe]
    show Except.ok _ = Except.ok _
    congr 1
    rw [List.map_map, List.map_map]
    refine List.map_congr_left fun D _ => ?_
    simp only [Function.comp_apply, Option.map_some, unitFactor]
    rw [← hE.norm _ _ a hpp ha.le, List.map_map, List.map_map]
    congr 2
    refine List.map_congr_left fun p _ => ?_
    simp only [Function.comp_apply, life_moved]
    rw [mul_div_assoc]
  have hform : ∀ eff : Eff K Q, ∀ Y, amplitudeFn E metric eff q Y = (do
      let ax ← axesFor metric eff q
      batchAmplitudes (vecs E metric eff.mp ax) (fun v => (factor E metric (eff.mp.p.getD (some 2)) ax).bind fun c => liftNan (fun a => E.norm (eff.mp.p.getD (some 2)) a * c) v) Y) := by
    intro eff Y
    cases metric <;> first | rfl | contradiction
  rw [hform, hform, axesFor_moved, map_bind, bind_map, hpe]
  congr 1
  funext ax
  rw [factor_moved E metric _ hE, unitFactor_eq _ _ ⟨hb, hw⟩]
  unfold batchAmplitudes
  have hmp : (mvEff a c metric eff).mp = movedMP a metric eff.mp := rfl
  rw [hmp, vecs_moved E metric ⟨hb, hw⟩ ha hE c eff.mp ax Y h1, map_bind, bind_map]
  congr 1
  funext R
  show Except.ok _ = Except.ok _
  congr 1
  rw [List.map_map, List.map_map]
  refine List.map_congr_left fun v _ => ?_
  simp only [Function.comp_apply]
  cases factor E metric (eff.mp.p.getD (some 2)) ax with
  | none => rfl
  | some f =>
    simp only [Option.map_some, Option.bind_some, liftNan]
    rw [mapM_option]
    cases v.mapM id with
    | none => rfl
    | some w =>
      simp only [Option.map_some]
      rw [hE.norm _ w _ hpp (vecFactor_pos metric ha).le]
      congr 1
      ring

/-! ### Objects -/

omit [FloorRing K] in
theorem storeWeight_moved (a : K) (metric : Metric) (m : MParams K) : storeWeight metric (movedMP a metric m) = movedMP a metric (storeWeight metric m) := by
  by_cases h : metric = .image
  · subst h
    unfold storeWeight movedMP
    simp only [if_true, or_true]
    cases hw : m.weight with
    | none => simp
    | some w => cases w <;> simp
  · unfold storeWeight
    rw [if_neg h, if_neg h]

omit [FloorRing K] in
theorem validateMetric_moved (cl : Cls) (metric : Metric) {a : K} (ha : 0 < a) (m : MParams K) : validateMetric cl metric (movedMP a metric m) = validateMetric cl metric m := by
  unfold movedMP
  by_cases h : metric = .heat ∨ metric = .image
  · rw [if_pos h]
    have hs : Key.sigma ∈ allowed cl metric := by rcases h with rfl | rfl <;> cases cl <;> decide
    have hin : MParams.inRange metric { m with sigma := some (a * m.sigma.getD (1 / 10)), weight := m.weight.map fun w => w.map fun w x => w (x / a) } = MParams.inRange metric m := by
      unfold MParams.inRange
      dsimp only
      have : decide (0 < a * m.sigma.getD (1 / 10)) = (match m.sigma with | none => true | some x => decide (0 < x)) := by
        cases m.sigma with
        | none =>
          simp only [Option.getD_none, decide_eq_true_eq]
          positivity
        | some x => simp only [Option.getD_some, mul_pos_iff_of_pos_left ha]
      rw [this]
      cases m.sigma <;> rfl
    have hk : ((MParams.keys { m with sigma := some (a * m.sigma.getD (1 / 10)), weight := m.weight.map fun w => w.map fun w x => w (x / a) }).any fun k => decide (k ∉ allowed cl metric)) =
        (m.keys.any fun k => decide (k ∉ allowed cl metric)) := by
      unfold MParams.keys
      simp only [Option.isSome_some, if_true, Option.isSome_map, List.any_append]
      have : ([Key.sigma].any fun k => decide (k ∉ allowed cl metric)) = ((if m.sigma.isSome = true then [Key.sigma] else []).any fun k => decide (k ∉ allowed cl metric)) := by
        cases m.sigma with
        | none => simp [hs]
        | some x => rfl
      rw [this]
    unfold validateMetric
    rw [hk, hin]
  · rw [if_neg h]

omit [FloorRing K] in
theorem validateMetric_p (cl : Cls) (metric : Metric) (m : MParams K) (h : validateMetric cl metric m = .ok ()) (x : K) (hx : m.p = some (some x)) : 0 < x := by
  unfold validateMetric at h
  by_cases hk : (m.keys.any fun k => decide (k ∉ allowed cl metric)) = true
  · rw [if_pos hk] at h; exact absurd h (by simp)
  · rw [if_neg hk] at h
    by_cases hr : m.inRange metric = true
    · unfold MParams.inRange at hr
      rw [hx] at hr
      simp only [Bool.and_eq_true, decide_eq_true_eq] at hr
      exact lt_of_lt_of_le one_pos hr.1.1.1.1.1
    · rw [if_neg hr] at h; exact absurd h (by simp)

omit [FloorRing K] [IsStrictOrderedRing K] in
theorem storeWeight_fields (metric : Metric) (m : MParams K) : (storeWeight metric m).p = m.p := by
  unfold storeWeight
  by_cases h : metric = .image
  · rw [if_pos h]
    cases m.weight with
    | none => rfl
    | some w => cases w <;> rfl
  · rw [if_neg h]

omit [FloorRing K] in
theorem zip_moved (isPI : Bool) (a c : K) (dims : List Q) (L : List (Axes K)) : dims.zip (L.map (mvAxes isPI a c)) = (dims.zip L).map fun x => (x.1, mvAxes isPI a c x.2) := by
  rw [List.zip_map_right]
  rfl

/-- What a successful `fit` stores, in both units. -/
theorem fit_both [LinearOrder Q] (cl : Cls) {a : K} (ha : 0 < a) (c : K) (e e' : DiagramMetrics.Est K Q) (hpar : e'.params = movedMetric a e.params) (X : List (List (Pt K Q)))
    (hfit : (DiagramMetrics.fit cl X e).2 = .ok ()) :
    ∃ metric eff dims, e.params.metric = some metric ∧ (∀ x, eff.mp.p = some (some x) → 0 < x) ∧ eff.mp.p = (e.params.mp.getD {}).p ∧
      (∀ o, e.params.order = some o → ∀ x, o = some x → 0 < x) ∧ (∀ D ∈ X, ∀ p ∈ D, p.b ≤ p.d) ∧
      (DiagramMetrics.fit cl X e).1 = ⟨e.params, some eff, some dims, if cl = .distance then some X else none⟩ ∧
      (DiagramMetrics.fit cl (movedAll a c X) e').1 = ⟨movedMetric a e.params, some (mvEff a c metric eff), some dims, if cl = .distance then some (movedAll a c X) else none⟩ ∧
      (DiagramMetrics.fit cl (movedAll a c X) e').2 = .ok () := by
  unfold DiagramMetrics.fit at hfit
  cases hck : check X with
  | error er => rw [hck] at hfit; exact absurd hfit (by simp)
  | ok u =>
    rw [hck] at hfit
    dsimp only at hfit
    cases hv : DiagramMetrics.validate e.params with
    | error er => rw [hv] at hfit; exact absurd hfit (by simp)
    | ok metric =>
      rw [hv] at hfit
      dsimp only at hfit
      cases hvm : validateMetric cl metric (e.params.mp.getD {}) with
      | error er => rw [hvm] at hfit; exact absurd hfit (by simp)
      | ok u' =>
        rw [hvm] at hfit
        dsimp only at hfit
        cases hb : binSampling (decide (metric = .image)) ((e.params.mp.getD {}).nBins.getD 100) (observedDims X) X with
        | error er => rw [hb] at hfit; exact absurd hfit (by simp)
        | ok L =>
          have hmo := (DiagramMetrics.validate_ok e.params metric).1 hv
          have hval := (Vectorizers.check_ok_iff X).1 hck
          have hpm : (movedMetric a e.params).mp = some (movedMP a metric (e.params.mp.getD {})) := by unfold movedMetric; rw [hmo.1]
          have hv' : DiagramMetrics.validate (movedMetric a e.params) = .ok metric := by
            rw [← hv]; unfold DiagramMetrics.validate movedMetric; rw [hmo.1]
          refine ⟨metric, ⟨storeWeight metric (e.params.mp.getD {}), some (metric, (observedDims X).zip L)⟩, observedDims X, hmo.1, ?_, storeWeight_fields _ _, ?_, hval.2.2, ?_, ?_⟩
          · intro x hx
            rw [storeWeight_fields] at hx
            exact validateMetric_p cl metric _ hvm x hx
          · intro o ho x hx
            rw [hx] at ho
            exact hmo.2 x ho
          · unfold DiagramMetrics.fit
            simp only [hck, hv, hvm, hb]
          · have hbm : binSampling (decide (metric = .image)) ((movedMP a metric (e.params.mp.getD {})).nBins.getD 100) (observedDims X) (movedAll a c X) =
                .ok (L.map (mvAxes (decide (metric = .image)) a c)) := by
              rw [(mp_p a metric _).2.2.2, binSampling_moved _ ha, hb]; rfl
            have hvm' : validateMetric cl metric (movedMP a metric (e.params.mp.getD {})) = .ok () := by rw [validateMetric_moved cl metric ha]; exact hvm
            unfold DiagramMetrics.fit
            simp only [check_moved ha, hck, hpar, hv', hpm, Option.getD_some, hvm', observedDims_moved, hbm, zip_moved, storeWeight_moved]
            exact ⟨rfl, trivial⟩

end

end Gtda.Props.UnitsMetrics

namespace Gtda.Props
open Gtda.Py Gtda.Parallel Gtda.Diagrams Gtda.Vectorizers Gtda.DiagramMetrics Gtda.ScalerObject Gtda.Spec.Units Gtda.Props.Units Gtda.Props.UnitsMetrics

section
variable {K Q : Type} [Field K] [LinearOrder K] [IsStrictOrderedRing K] [FloorRing K] [LinearOrder Q]

theorem UnitsMetrics.unitFactor_pos (pow : K → K → K) (metric : Metric) (p : Option K) {a : K} (ha : 0 < a) (hpow : ∀ e, 0 < pow a e) : 0 < unitFactor pow metric p a := by
  have := hpow (exponentOf metric p)
  cases metric <;> simp only [unitFactor] <;> positivity

theorem UnitsMetrics.orderOf_eq (m : Option (MParams K)) : orderOf m = (m.getD {}).p.getD (some 2) := by
  cases m <;> rfl

/-- **C130**, `PairwiseDistance`: if `fit` succeeds, whatever happened to the object before, it succeeds in other units, and all distances to the training diagrams are multiplied by a factor which depends on the
metric only: `a` for bottleneck and Wasserstein distances, `a ^ (1/p)` for Betti curves, `a * a ^ (1/p)` for landscapes and silhouettes, `a ^ (2/p) / a ^ 2` for heat kernels and persistence images (whose parameters
`sigma` and `weight_function` are to be expressed in the new units). They do not depend on the origin. -/
theorem C130_distance (E : DiagramMetrics.Engine K Q) {a : K} (ha : 0 < a) (hE : Scales E a) (c : K) (e e' : DiagramMetrics.Est K Q) (hpar : e'.params = movedMetric a e.params)
    (X : List (List (Pt K Q))) (hfit : (DiagramMetrics.fit .distance X e).2 = .ok ()) :
    ∃ metric, e.params.metric = some metric ∧ (DiagramMetrics.fit .distance (movedAll a c X) e').2 = .ok () ∧
      ∀ nJobs Y, transformDistance E nJobs (movedAll a c Y) (DiagramMetrics.fit .distance (movedAll a c X) e').1 =
        Except.map (timesDist (unitFactor E.pow metric (orderOf e.params.mp) a)) (transformDistance E nJobs Y (DiagramMetrics.fit .distance X e).1) := by
  obtain ⟨metric, eff, dims, hm, hp, hpe, ho, hX, h1, h2, h3⟩ := fit_both .distance ha c e e' hpar X hfit
  refine ⟨metric, hm, h3, fun nJobs Y => ?_⟩
  rw [h1, h2]
  simp only [transformDistance, check_moved ha]
  cases hck : check Y with
  | error er => rfl
  | ok u =>
    have hY := ((Vectorizers.check_ok_iff Y).1 hck).2.2
    have hm' : (movedMetric a e.params).metric = some metric ∧ (movedMetric a e.params).order = e.params.order := by unfold movedMetric; rw [hm]; exact ⟨rfl, rfl⟩
    simp only [ok_bind, if_true, attr, recipe, hm, hm'.1, hm'.2]
    rw [movedAll_eq, movedAll_eq, parallelPairwise_natural (fun p => p.b ≤ p.d) (mv a c) (mv_q a c) (fun x => x.map fun y => unitFactor E.pow metric (eff.mp.p.getD (some 2)) a * y)
      (metricFn E metric eff) _ dims nJobs Y X hY hX (fun q _ Y1 Y2 h1 h2 => metricFn_moved E metric ha hE c eff hp q Y1 Y2 h1 h2), Units.map_bind, Units.bind_map]
    congr 1
    funext A
    have hf : unitFactor E.pow metric (eff.mp.p.getD (some 2)) a = unitFactor E.pow metric (orderOf e.params.mp) a := by rw [UnitsMetrics.orderOf_eq, hpe]
    rw [hf]
    cases hor : e.params.order with
    | none => rfl
    | some o =>
      show Except.ok _ = Except.ok _
      congr 1
      simp only [timesDist, List.map_map]
      congr 1
      refine List.map_congr_left fun r _ => ?_
      simp only [Function.comp_apply, List.map_map]
      refine List.map_congr_left fun l _ => ?_
      exact liftNan_times E o (ho o hor) hE _ (UnitsMetrics.unitFactor_pos _ _ _ ha fun e => (hE.pow e).1).le l

/-- **C130**, `Amplitude`: amplitudes are multiplied by the same factors as distances. -/
theorem C130_amplitude (E : DiagramMetrics.Engine K Q) {a : K} (ha : 0 < a) (hE : Scales E a) (c : K) (e e' : DiagramMetrics.Est K Q) (hpar : e'.params = movedMetric a e.params)
    (X : List (List (Pt K Q))) (hfit : (DiagramMetrics.fit .amplitude X e).2 = .ok ()) :
    ∃ metric, e.params.metric = some metric ∧ (DiagramMetrics.fit .amplitude (movedAll a c X) e').2 = .ok () ∧
      ∀ nJobs Y, transformAmplitude E nJobs (movedAll a c Y) (DiagramMetrics.fit .amplitude (movedAll a c X) e').1 =
        Except.map (List.map (List.map fun x => x.map fun y => unitFactor E.pow metric (orderOf e.params.mp) a * y)) (transformAmplitude E nJobs Y (DiagramMetrics.fit .amplitude X e).1) := by
  obtain ⟨metric, eff, dims, hm, hp, hpe, ho, hX, h1, h2, h3⟩ := fit_both .amplitude ha c e e' hpar X hfit
  refine ⟨metric, hm, h3, fun nJobs Y => ?_⟩
  rw [h1, h2]
  simp only [transformAmplitude, check_moved ha]
  cases hck : check Y with
  | error er => rfl
  | ok u =>
    have hY := ((Vectorizers.check_ok_iff Y).1 hck).2.2
    have hm' : (movedMetric a e.params).metric = some metric ∧ (movedMetric a e.params).order = e.params.order := by unfold movedMetric; rw [hm]; exact ⟨rfl, rfl⟩
    simp only [ok_bind, attr, recipe, hm, hm'.1, hm'.2, parallelAmplitude]
    rw [movedAll_eq, perDim_natural (fun p => p.b ≤ p.d) (mv a c) (mv_q a c) (fun x => x.map fun y => unitFactor E.pow metric (eff.mp.p.getD (some 2)) a * y)
      (amplitudeFn E metric eff) _ dims nJobs Y hY (fun q _ Y1 h1 => amplitudeFn_moved E metric ha hE c eff hp q Y1 h1), Units.map_bind, Units.bind_map]
    congr 1
    funext A
    have hf : unitFactor E.pow metric (eff.mp.p.getD (some 2)) a = unitFactor E.pow metric (orderOf e.params.mp) a := by rw [UnitsMetrics.orderOf_eq, hpe]
    rw [hf]
    cases hor : e.params.order with
    | none => rfl
    | some o =>
      show Except.ok _ = Except.ok _
      congr 1
      simp only [List.map_map]
      refine List.map_congr_left fun r _ => ?_
      simp only [Function.comp_apply, List.map_cons, List.map_nil, List.cons.injEq, and_true]
      exact liftNan_times E o (ho o hor) hE _ (UnitsMetrics.unitFactor_pos _ _ _ ha fun e => (hE.pow e).1).le r

/-- **C130**, `Scaler`: if `fit` succeeds, whatever happened to the object before, and its function is homogeneous (as the maximum or the mean), `fit` succeeds in other units, and the scale is multiplied by the
factor of the metric, wherever the origin is. So diagrams transformed by it are multiplied by `a` divided by that factor. -/
theorem C130_scaler (E : DiagramMetrics.Engine K Q) {a : K} (ha : 0 < a) (hE : Scales E a) (e e' : SEst K Q) (hpar : e'.params = movedScaler a e.params) (metric : Metric) (hm : e.params.metric = some metric)
    (f : List (List (Option K)) → PyM (Option K)) (hf : e.params.function = some f) (hom : Homogeneous f (unitFactor E.pow metric (orderOf e.params.mp) a))
    (nJobs : Nat) (X : List (List (Pt K Q))) (hfit : (sfit E nJobs X e).2 = .ok ()) :
    (∀ c, (sfit E nJobs (movedAll a c X) e').2 = .ok () ∧
      (sfit E nJobs (movedAll a c X) e').1.scale = (sfit E nJobs X e).1.scale.map fun s => s.map fun s => unitFactor E.pow metric (orderOf e.params.mp) a * s) ∧
    ∀ Y, stransform (movedAll a 0 Y) (sfit E nJobs (movedAll a 0 X) e').1 =
      Except.map (List.map (List.map fun p => ⟨p.b.map fun x => a / unitFactor E.pow metric (orderOf e.params.mp) a * x, p.d.map fun x => a / unitFactor E.pow metric (orderOf e.params.mp) a * x, p.q⟩))
        (stransform Y (sfit E nJobs X e).1) := by
  have hκ := UnitsMetrics.unitFactor_pos E.pow metric (orderOf e.params.mp) ha fun e => (hE.pow e).1
  generalize hκe : unitFactor E.pow metric (orderOf e.params.mp) a = κ at *
  have key : ∃ eff s, (sfit E nJobs X e).1.eff = some eff ∧ (sfit E nJobs X e).1.scale = some s ∧ ∀ c, (sfit E nJobs (movedAll a c X) e').2 = .ok () ∧
      (∃ eff', (sfit E nJobs (movedAll a c X) e').1.eff = some eff') ∧ (sfit E nJobs (movedAll a c X) e').1.scale = some (s.map fun s => κ * s) := by
    unfold sfit at hfit
    cases hck : check X with
    | error er => rw [hck] at hfit; exact absurd hfit (by simp)
    | ok u =>
      rw [hck] at hfit
      dsimp only at hfit
      have hv : svalidate e.params = .ok metric := by unfold svalidate; rw [hm]
      rw [hv] at hfit
      dsimp only at hfit
      cases hvm : validateMetric .amplitude metric (e.params.mp.getD {}) with
      | error er => rw [hvm] at hfit; exact absurd hfit (by simp)
      | ok u' =>
        rw [hvm] at hfit
        dsimp only at hfit
        cases hb : binSampling (decide (metric = .image)) ((e.params.mp.getD {}).nBins.getD 100) (observedDims X) X with
        | error er => rw [hb] at hfit; exact absurd hfit (by simp)
        | ok L =>
          rw [hb] at hfit
          dsimp only at hfit
          generalize heff : (⟨storeWeight metric (e.params.mp.getD {}), some (metric, (observedDims X).zip L)⟩ : Eff K Q) = eff at hfit
          cases hA : parallelAmplitude (amplitudeFn E metric eff) (observedDims X) nJobs X with
          | error er => rw [hA] at hfit; exact absurd hfit (by simp)
          | ok A =>
            rw [hA] at hfit
            dsimp only at hfit
            cases hs : callFunction e.params A with
            | error er => rw [hs] at hfit; exact absurd hfit (by simp)
            | ok s =>
              have hX := ((Vectorizers.check_ok_iff X).1 hck).2.2
              refine ⟨eff, s, ?_, ?_, fun c => ?_⟩
              · unfold sfit; simp only [hck, hv, hvm, hb, heff, hA, hs]
              · unfold sfit; simp only [hck, hv, hvm, hb, heff, hA, hs]
              · have hpm : (movedScaler a e.params).mp = some (movedMP a metric (e.params.mp.getD {})) ∧ (movedScaler a e.params).metric = some metric ∧ (movedScaler a e.params).function = some f := by
                  unfold movedScaler; rw [hm]; exact ⟨rfl, rfl, hf⟩
                have hv' : svalidate (movedScaler a e.params) = .ok metric := by unfold svalidate; rw [hpm.2.1]
                have hbm : binSampling (decide (metric = .image)) ((movedMP a metric (e.params.mp.getD {})).nBins.getD 100) (observedDims X) (movedAll a c X) =
                    .ok (L.map (mvAxes (decide (metric = .image)) a c)) := by
                  rw [(mp_p a metric _).2.2.2, binSampling_moved _ ha, hb]; rfl
                have hvm' : validateMetric .amplitude metric (movedMP a metric (e.params.mp.getD {})) = .ok () := by rw [validateMetric_moved _ metric ha]; exact hvm
                have heff' : (⟨movedMP a metric (storeWeight metric (e.params.mp.getD {})), some (metric, ((observedDims X).zip L).map fun x => (x.1, mvAxes (decide (metric = .image)) a c x.2))⟩ : Eff K Q) =
                    mvEff a c metric eff := by rw [← heff]; rfl
                have hp : ∀ x, eff.mp.p = some (some x) → 0 < x := by
                  intro x hx
                  rw [← heff] at hx
                  dsimp only at hx
                  rw [storeWeight_fields] at hx
                  exact validateMetric_p _ metric _ hvm x hx
                have hfac : unitFactor E.pow metric (eff.mp.p.getD (some 2)) a = κ := by
                  rw [← hκe, UnitsMetrics.orderOf_eq, ← heff]
                  dsimp only
                  rw [storeWeight_fields]
                have hA' : parallelAmplitude (amplitudeFn E metric (mvEff a c metric eff)) (observedDims X) nJobs (movedAll a c X) = .ok (A.map (List.map fun x => x.map fun y => κ * y)) := by
                  unfold parallelAmplitude at hA ⊢
                  rw [movedAll_eq, perDim_natural (fun p => p.b ≤ p.d) (mv a c) (mv_q a c) (fun x => x.map fun y => unitFactor E.pow metric (eff.mp.p.getD (some 2)) a * y)
                    (amplitudeFn E metric eff) _ (observedDims X) nJobs X hX (fun q _ Y1 h1 => amplitudeFn_moved E metric ha hE c eff hp q Y1 h1), hA, hfac]
                  rfl
                have hs' : callFunction (movedScaler a e.params) (A.map (List.map fun x => x.map fun y => κ * y)) = .ok (s.map fun s => κ * s) := by
                  unfold callFunction at hs ⊢
                  rw [hf] at hs
                  rw [hpm.2.2]
                  dsimp only at hs ⊢
                  rw [hom A, hs]
                  rfl
                unfold sfit
                simp only [check_moved ha, hck, hpar, hv', hpm.1, Option.getD_some, hvm', observedDims_moved, hbm, zip_moved, storeWeight_moved, heff', hA', hs']
                exact ⟨trivial, ⟨_, rfl⟩, trivial⟩
  obtain ⟨eff, s, h1, h2, h3⟩ := key
  refine ⟨fun c => ⟨(h3 c).1, ?_⟩, fun Y => ?_⟩
  · rw [(h3 c).2.2, h2]; rfl
  · obtain ⟨-, ⟨eff', h4⟩, h5⟩ := h3 0
    unfold stransform
    rw [h1, h4]
    dsimp only
    rw [check_moved ha, h5, h2]
    cases hck : check Y with
    | error er => rfl
    | ok u =>
      simp only [ok_bind, attr, Except.map]
      congr 1
      unfold movedAll moved
      simp only [List.map_map]
      refine List.map_congr_left fun D _ => ?_
      simp only [Function.comp_apply, List.map_map]
      refine List.map_congr_left fun p _ => ?_
      have hd : ∀ x, divScale (s.map fun s => κ * s) (a * x + 0) = (divScale s x).map fun x => a / κ * x := by
        intro x
        cases s with
        | none => rfl
        | some s =>
          simp only [divScale, Option.map_some]
          by_cases h0 : s = 0
          · rw [if_pos h0, if_pos (by rw [h0, mul_zero])]; rfl
          · rw [if_neg h0, if_neg (mul_ne_zero hκ.ne' h0)]
            simp only [Option.map_some, Option.some.injEq, add_zero]
            field_simp
      simp only [Function.comp_apply, hd]

/-- **C130**: so with the bottleneck and the Wasserstein metric scaled diagrams do not depend on the unit. -/
theorem C130_scaler_lengths (E : DiagramMetrics.Engine K Q) {a : K} (ha : 0 < a) (hE : Scales E a) (e e' : SEst K Q) (hpar : e'.params = movedScaler a e.params) (metric : Metric) (hm : e.params.metric = some metric)
    (hb : metric = .bottleneck ∨ metric = .wasserstein) (f : List (List (Option K)) → PyM (Option K)) (hf : e.params.function = some f) (hom : Homogeneous f a) (nJobs : Nat) (X : List (List (Pt K Q)))
    (hfit : (sfit E nJobs X e).2 = .ok ()) (Y : List (List (Pt K Q))) :
    stransform (movedAll a 0 Y) (sfit E nJobs (movedAll a 0 X) e').1 = stransform Y (sfit E nJobs X e).1 := by
  have hu : unitFactor E.pow metric (orderOf e.params.mp) a = a := by rcases hb with rfl | rfl <;> rfl
  rw [(C130_scaler E ha hE e e' hpar metric hm f hf (by rw [hu]; exact hom) nJobs X hfit).2 Y, hu]
  cases stransform Y (sfit E nJobs X e).1 with
  | error er => rfl
  | ok R =>
    simp only [Except.map, div_self ha.ne', one_mul, Option.map_id']
    exact congrArg Except.ok ((List.map_congr_left fun D _ => List.map_id' D).trans (List.map_id' R))

end

/-! ### Real numbers -/

theorem UnitsMetrics.lpNorm_times (p : ENNReal) (hp : 0 < p) (v : List ℝ) (s : ℝ) (hs : 0 ≤ s) : lpNorm p (v.map fun x => s * x) = s * lpNorm p v := by
  have hv : ∀ i : Nat, ((v.map fun x => s * x)[i]?).getD 0 = s * (v[i]?).getD 0 := by
    intro i
    rw [List.getElem?_map]
    cases v[i]? <;> simp
  unfold lpNorm lpVec
  rw [List.length_map]
  simp only [hv]
  by_cases ht : p = ⊤
  · subst ht
    rw [PiLp.norm_eq_ciSup, PiLp.norm_eq_ciSup, Real.mul_iSup_of_nonneg hs]
    congr 1
    funext i
    simp only [norm_mul, Real.norm_of_nonneg hs]
  · have h0 : 0 < p.toReal := ENNReal.toReal_pos hp.ne' ht
    rw [PiLp.norm_eq_sum h0, PiLp.norm_eq_sum h0]
    simp only [norm_mul, Real.norm_of_nonneg hs, Real.mul_rpow hs (norm_nonneg _)]
    rw [← Finset.mul_sum, Real.mul_rpow (Real.rpow_nonneg hs _) (Finset.sum_nonneg fun i _ => Real.rpow_nonneg (norm_nonneg _) _), ← Real.rpow_mul hs, mul_one_div_cancel h0.ne', Real.rpow_one]

theorem UnitsMetrics.rpow_times {a : ℝ} (ha : 0 < a) (x e : ℝ) : (a * x) ^ e = a ^ e * x ^ e := by
  rcases le_or_gt 0 x with hx | hx
  · exact Real.mul_rpow ha.le hx
  · rw [Real.rpow_def_of_neg (mul_neg_of_pos_of_neg ha hx), Real.rpow_def_of_neg hx, Real.rpow_def_of_pos ha, Real.log_mul ha.ne' hx.ne, add_mul, Real.exp_add, mul_assoc]

theorem UnitsMetrics.gap_moved {Q : Type} {a : ℝ} (ha : 0 < a) (c : ℝ) (x y : Option (Pt ℝ Q)) : gap (x.map (mv a c)) (y.map (mv a c)) = a * gap x y := by
  have h : ∀ u v : ℝ, |a * u + c - (a * v + c)| = a * |u - v| := by
    intro u v
    rw [show a * u + c - (a * v + c) = a * (u - v) by ring, abs_mul, abs_of_pos ha]
  cases x <;> cases y <;> simp only [Option.map_none, Option.map_some, gap, mv, h, mul_zero]
  · ring
  · ring
  · exact (mul_max_of_nonneg _ _ ha.le).symm

theorem UnitsMetrics.isMatching_moved {Q : Type} (g : Pt ℝ Q → Pt ℝ Q) (D E : List (Pt ℝ Q)) (M : List (Option (Pt ℝ Q) × Option (Pt ℝ Q))) (h : IsMatching D E M) :
    IsMatching (D.map g) (E.map g) (M.map fun m => (m.1.map g, m.2.map g)) := by
  constructor
  · rw [List.filterMap_map]
    exact (List.Perm.of_eq (by rw [List.map_filterMap]; rfl)).trans (h.left.map g)
  · rw [List.filterMap_map]
    exact (List.Perm.of_eq (by rw [List.map_filterMap]; rfl)).trans (h.right.map g)

open Pointwise in
/-- The exact bottleneck and Wasserstein distances are lengths and do not depend on the origin. -/
theorem UnitsMetrics.matchingDistance_moved {Q : Type} (p : ENNReal) (hp : 0 < p) {a : ℝ} (ha : 0 < a) (c : ℝ) (D E : List (Pt ℝ Q)) :
    matchingDistance p (moved a c D) (moved a c E) = a * matchingDistance p D E := by
  have hprice : ∀ M : List (Option (Pt ℝ Q) × Option (Pt ℝ Q)), totalPrice p (M.map fun m => (m.1.map (mv a c), m.2.map (mv a c))) = a * totalPrice p M := by
    intro M
    unfold totalPrice
    rw [← UnitsMetrics.lpNorm_times p hp _ a ha.le, List.map_map, List.map_map]
    congr 1
    refine List.map_congr_left fun m _ => ?_
    exact UnitsMetrics.gap_moved ha c m.1 m.2
  have hinv : ∀ x : Pt ℝ Q, mv a c (mv a⁻¹ (-(a⁻¹ * c)) x) = x := by
    intro x
    cases x
    simp only [mv, Pt.mk.injEq, and_true]
    constructor <;> · field_simp; ring
  have hinv' : ∀ x : Pt ℝ Q, mv a⁻¹ (-(a⁻¹ * c)) (mv a c x) = x := by
    intro x
    cases x
    simp only [mv, Pt.mk.injEq, and_true]
    constructor <;> · field_simp; ring
  have hset : {r | ∃ M, IsMatching (moved a c D) (moved a c E) M ∧ r = totalPrice p M} = a • {r | ∃ M, IsMatching D E M ∧ r = totalPrice p M} := by
    ext r
    rw [Set.mem_smul_set]
    constructor
    · rintro ⟨M, hM, rfl⟩
      have hM' := UnitsMetrics.isMatching_moved (mv a⁻¹ (-(a⁻¹ * c))) _ _ M hM
      have back : ∀ D : List (Pt ℝ Q), (moved a c D).map (mv a⁻¹ (-(a⁻¹ * c))) = D := by
        intro D
        show (D.map (mv a c)).map _ = D
        rw [List.map_map]
        exact (List.map_congr_left fun x _ => hinv' x).trans (List.map_id' D)
      rw [back, back] at hM'
      refine ⟨_, ⟨_, hM', rfl⟩, ?_⟩
      rw [smul_eq_mul, ← hprice, List.map_map]
      congr 1
      refine (List.map_congr_left fun m _ => ?_).trans (List.map_id' M)
      rcases m with ⟨x, y⟩
      cases x <;> cases y <;> simp [hinv]
    · rintro ⟨_, ⟨M, hM, rfl⟩, rfl⟩
      exact ⟨_, UnitsMetrics.isMatching_moved (mv a c) D E M hM, by rw [hprice]; rfl⟩
  unfold matchingDistance
  rw [hset, Real.sInf_smul_of_nonneg ha.le, smul_eq_mul]

/-- **C130**: the hypothesis on the engine holds, for all `a > 0`, for real powers, norms, and exact bottleneck and Wasserstein distances. -/
theorem C130_real_engine {Q : Type} (E : DiagramMetrics.Engine ℝ Q) (hE : Gtda.Spec.DiagramMetrics.RealEngine E) (hb : ∀ delta D D', E.bottleneck delta D D' = matchingDistance ⊤ D D')
    (hw : ∀ p delta D D', E.wasserstein p delta D D' = matchingDistance (max 1 (Gtda.Spec.DiagramMetrics.toP p)) D D') {a : ℝ} (ha : 0 < a) : Scales E a where
  norm p v s hp hs := by
    have h : 0 < Gtda.Spec.DiagramMetrics.toP p := by
      cases p with
      | none => exact ENNReal.zero_lt_top
      | some x => exact ENNReal.ofReal_pos.2 (hp x rfl)
    rw [hE.norm p _ h, hE.norm p _ h, UnitsMetrics.lpNorm_times _ h v s hs]
  pow e := by
    rw [hE.pow]
    exact ⟨Real.rpow_pos_of_pos ha e, fun x => by rw [hE.pow, hE.pow, UnitsMetrics.rpow_times ha]⟩
  bottleneck c delta D D' := by rw [hb, hb, UnitsMetrics.matchingDistance_moved _ ENNReal.zero_lt_top ha]
  wasserstein c p delta D D' := by rw [hw, hw, UnitsMetrics.matchingDistance_moved _ (lt_of_lt_of_le one_pos (le_max_left _ _)) ha]

/-! ### Witnesses and examples -/

/-- An engine over the rational numbers with norms as for `p = 1`, and the difference of total lifetimes as distance. -/
def UnitsMetrics.exE : DiagramMetrics.Engine ℚ Nat :=
  ⟨⟨fun _ _ I => I, fun x _ => x, 0⟩, fun _ v => (v.map fun x => |x|).sum, fun _ D D' => (D.map fun p => p.d - p.b).sum - (D'.map fun p => p.d - p.b).sum,
    fun _ _ D D' => (D.map fun p => p.d - p.b).sum - (D'.map fun p => p.d - p.b).sum⟩

theorem UnitsMetrics.exE_scales {a : ℚ} (ha : 0 < a) : Scales UnitsMetrics.exE a := by
  have hsum : ∀ (c : ℚ) (D : List (Pt ℚ Nat)), ((moved a c D).map fun p => p.d - p.b).sum = a * (D.map fun p => p.d - p.b).sum := by
    intro c D
    induction D with
    | nil => simp [moved]
    | cons p D ih =>
      show (a * p.d + c - (a * p.b + c)) + ((moved a c D).map fun p => p.d - p.b).sum = _
      rw [ih, List.map_cons, List.sum_cons]; ring
  refine ⟨fun p v s _ hs => ?_, fun e => ⟨ha, fun x => rfl⟩, fun c _ D D' => ?_, fun c _ _ D D' => ?_⟩
  · show ((v.map fun x => s * x).map fun x => |x|).sum = s * (v.map fun x => |x|).sum
    induction v with
    | nil => simp
    | cons x v ih =>
      simp only [List.map_cons, List.sum_cons] at ih ⊢
      rw [ih, abs_mul, abs_of_nonneg hs]; ring
  · show _ - _ = a * (_ - _)
    rw [hsum, hsum]; ring
  · show _ - _ = a * (_ - _)
    rw [hsum, hsum]; ring

/-- The scaler with the landscape metric, `p = 1` and 3 bins. -/
def UnitsMetrics.scL : SParams ℚ := ⟨some .landscape, some { p := some (some 1), nBins := some 3 }, some maxFn⟩

example : (sfit UnitsMetrics.exE 2 vecX (snew UnitsMetrics.scL)).2 = .ok () := by decide +kernel

/-- **C130**: but in general scaled diagrams depend on the unit: with the landscape metric, doubling all values (and scaling again) halves the scaled diagrams, though all parameters are free of units. -/
theorem C130_refuted_scaler : ∃ (P : SParams ℚ) (X : List (List (Pt ℚ Nat))), movedScaler 2 P = P ∧ Scales UnitsMetrics.exE 2 ∧ (∀ f, P.function = some f → Homogeneous f (4 : ℚ)) ∧
    (∃ R, stransform X (sfit UnitsMetrics.exE 1 X (snew P)).1 = .ok R ∧
      stransform (movedAll 2 0 X) (sfit UnitsMetrics.exE 1 (movedAll 2 0 X) (snew P)).1 = .ok (R.map fun D => D.map fun p => ⟨p.b.map fun x => 1 / 2 * x, p.d.map fun x => 1 / 2 * x, p.q⟩) ∧
      ∃ D ∈ R, ∃ p ∈ D, ∃ x, p.d = some x ∧ x ≠ 0) := by
  refine ⟨UnitsMetrics.scL, vecX, rfl, UnitsMetrics.exE_scales two_pos, fun f hf => ?_,
    [[⟨some 0, some (1 / 2), 0⟩, ⟨some (1 / 4), some (3 / 4), 0⟩, ⟨some 0, some (1 / 4), 1⟩], [⟨some 0, some 1, 0⟩, ⟨some (1 / 4), some 1, 1⟩, ⟨some (1 / 2), some (1 / 2), 0⟩]],
    by decide +kernel, by decide +kernel, ?_⟩
  · cases hf
    intro A
    exact maxFn_homogeneous A 4 (by norm_num)
  · refine ⟨_, List.mem_cons_self, _, List.mem_cons_self, _, rfl, by norm_num⟩

end Gtda.Props
