import Verif.Spec.ScalerObject
import Verif.Props.DiagramMetrics

set_option autoImplicit false
set_option linter.unusedSectionVars false

/-!
# C115: `Scaler` as an estimator
-/

namespace Gtda.Props.ScalerObject
open Gtda.Py Gtda.Parallel Gtda.Diagrams Gtda.DiagramMetrics Gtda.Spec.DiagramMetrics Gtda.Spec.Vectorizers Gtda.ScalerObject Gtda.Spec.ScalerObject
open Gtda.Vectorizers (Axes check observedDims)
open Gtda.Props.DiagramMetrics Gtda.Props
open Gtda.Props.Vectorizers (check_ok_iff observedDims_spec training_dims)

variable {K Q : Type} [Field K] [LinearOrder K] [FloorRing K] [LinearOrder Q]

theorem svalidate_ok (P : SParams K) (metric : Metric) : svalidate P = .ok metric ↔ validate (amplitudeOf P) = .ok metric := by
  unfold svalidate validate amplitudeOf
  cases P.metric <;> simp

theorem sfit_success (E : Engine K Q) (nJobs : Nat) (X : List (List (Pt K Q))) (e : SEst K Q) (h : (sfit E nJobs X e).2 = .ok ()) :
    Valid X ∧ ∃ metric L A s, ValidParams .amplitude (amplitudeOf e.params) metric ∧
      binSampling (decide (metric = .image)) ((e.params.mp.getD {}).nBins.getD 100) (observedDims X) X = .ok L ∧
      parallelAmplitude (amplitudeFn E metric ⟨storeWeight metric (e.params.mp.getD {}), some (metric, (observedDims X).zip L)⟩) (observedDims X) nJobs X = .ok A ∧
      callFunction e.params A = .ok s ∧
      (sfit E nJobs X e).1 = ⟨e.params, some ⟨storeWeight metric (e.params.mp.getD {}), some (metric, (observedDims X).zip L)⟩, some (observedDims X), some s⟩ := by
  unfold sfit at h ⊢
  cases hc : check X with
  | error er => rw [hc] at h; cases h
  | ok u =>
    rw [hc] at h
    dsimp only at h ⊢
    cases hv : svalidate e.params with
    | error er => rw [hv] at h; cases h
    | ok metric =>
      rw [hv] at h
      dsimp only at h ⊢
      cases hm : validateMetric .amplitude metric (e.params.mp.getD {}) with
      | error er => rw [hm] at h; cases h
      | ok u =>
        rw [hm] at h
        dsimp only at h ⊢
        cases hb : binSampling (decide (metric = .image)) ((e.params.mp.getD {}).nBins.getD 100) (observedDims X) X with
        | error er => rw [hb] at h; cases h
        | ok L =>
          rw [hb] at h
          dsimp only at h ⊢
          cases ha : parallelAmplitude (amplitudeFn E metric ⟨storeWeight metric (e.params.mp.getD {}), some (metric, (observedDims X).zip L)⟩) (observedDims X) nJobs X with
          | error er => rw [ha] at h; cases h
          | ok A =>
            rw [ha] at h
            dsimp only at h ⊢
            cases hs : callFunction e.params A with
            | error er => rw [hs] at h; cases h
            | ok s => exact ⟨(check_ok_iff X).mp hc, metric, L, A, s, (validateMetric_ok .amplitude (amplitudeOf e.params) metric).mp ⟨(svalidate_ok _ _).mp hv, hm⟩, hb, ha, hs, rfl⟩

/-- What `fit` does on a training collection once the parameters are valid. -/
theorem sfit_eq (E : Engine K Q) (nJobs : Nat) (X : List (List (Pt K Q))) (e : SEst K Q) (metric : Metric) (L) (A) (hX : Valid X) (hP : ValidParams .amplitude (amplitudeOf e.params) metric)
    (hL : binSampling (decide (metric = .image)) ((e.params.mp.getD {}).nBins.getD 100) (observedDims X) X = .ok L)
    (hA : parallelAmplitude (amplitudeFn E metric ⟨storeWeight metric (e.params.mp.getD {}), some (metric, (observedDims X).zip L)⟩) (observedDims X) nJobs X = .ok A) :
    sfit E nJobs X e = match callFunction e.params A with
      | .error er => (⟨e.params, some ⟨storeWeight metric (e.params.mp.getD {}), some (metric, (observedDims X).zip L)⟩, some (observedDims X), e.scale⟩, .error er)
      | .ok s => (⟨e.params, some ⟨storeWeight metric (e.params.mp.getD {}), some (metric, (observedDims X).zip L)⟩, some (observedDims X), some s⟩, .ok ()) := by
  obtain ⟨g1, g2⟩ := (validateMetric_ok .amplitude (amplitudeOf e.params) metric).mpr hP
  have g2' : validateMetric .amplitude metric (e.params.mp.getD {}) = .ok () := g2
  unfold sfit
  rw [(check_ok_iff X).mpr hX, (svalidate_ok _ _).mpr g1]
  dsimp only
  rw [g2']
  dsimp only
  rw [hL]
  dsimp only
  rw [hA]
  dsimp only
  cases callFunction e.params A <;> rfl

theorem bind_ok {β : Type} (x : PyM β) : (x >>= fun a => Except.ok a) = x := by cases x <;> rfl

theorem sfit_params (E : Engine K Q) (nJobs : Nat) (X : List (List (Pt K Q))) (e : SEst K Q) : (sfit E nJobs X e).1.params = e.params := by
  unfold sfit
  dsimp only
  split
  · rfl
  · split
    · rfl
    · split
      · rfl
      · split
        · rfl
        · split
          · rfl
          · split <;> rfl

/-- A failed `fit` keeps the scale, and the object stays fitted. -/
theorem sfit_failed (E : Engine K Q) (nJobs : Nat) (X : List (List (Pt K Q))) (e : SEst K Q) (h : (sfit E nJobs X e).2 ≠ .ok ()) :
    (sfit E nJobs X e).1.scale = e.scale ∧ (e.eff ≠ none → (sfit E nJobs X e).1.eff ≠ none) := by
  unfold sfit at h ⊢
  dsimp only at h ⊢
  split
  · exact ⟨rfl, id⟩
  · rename_i h1
    rw [h1] at h
    dsimp only at h
    split
    · exact ⟨rfl, id⟩
    · rename_i h2
      rw [h2] at h
      dsimp only at h
      split
      · exact ⟨rfl, fun _ => Option.some_ne_none _⟩
      · rename_i h3
        rw [h3] at h
        dsimp only at h
        split
        · exact ⟨rfl, fun _ => Option.some_ne_none _⟩
        · rename_i h4
          rw [h4] at h
          dsimp only at h
          split
          · exact ⟨rfl, fun _ => Option.some_ne_none _⟩
          · rename_i h5
            rw [h5] at h
            dsimp only at h
            split
            · exact ⟨rfl, fun _ => Option.some_ne_none _⟩
            · rename_i h6
              rw [h6] at h
              exact absurd rfl h

end Gtda.Props.ScalerObject

namespace Gtda.Props
open Gtda.Py Gtda.Parallel Gtda.Diagrams Gtda.DiagramMetrics Gtda.Spec.DiagramMetrics Gtda.Spec.Vectorizers Gtda.ScalerObject Gtda.Spec.ScalerObject
open Gtda.Vectorizers (Axes check observedDims)
open Gtda.Props.DiagramMetrics Gtda.Props.ScalerObject
open Gtda.Props.Vectorizers (check_ok_iff observedDims_spec training_dims)

section
variable {K Q : Type} [Field K] [LinearOrder K] [FloorRing K] [LinearOrder Q]

/-- **C115**, the scale: `fit` succeeds with scale `s` if and only if an `Amplitude` with the same metric and metric parameters, fitted on the collection, can transform it, and the function returns `s` on
the array of these amplitudes. -/
theorem C115_scale (E : Engine K Q) (nJobs : Nat) (X : List (List (Pt K Q))) (e : SEst K Q) (s : Option K) :
    ((sfit E nJobs X e).2 = .ok () ∧ (sfit E nJobs X e).1.scale = some s) ↔
      ∃ A f, (fit .amplitude X (new (amplitudeOf e.params))).2 = .ok () ∧ transformAmplitude E nJobs X (fit .amplitude X (new (amplitudeOf e.params))).1 = .ok A ∧
        e.params.function = some f ∧ f A = .ok s := by
  have e0 : (new (amplitudeOf e.params) : Est K Q).params = amplitudeOf e.params := rfl
  constructor
  · rintro ⟨h, hs⟩
    obtain ⟨hX, metric, L, A, s', hP, hL, hA, hf, he⟩ := sfit_success E nJobs X e h
    rw [he] at hs
    cases Option.some.inj hs
    have hfit : fit .amplitude X (new (amplitudeOf e.params) : Est K Q) =
        (⟨amplitudeOf e.params, some ⟨storeWeight metric (e.params.mp.getD {}), some (metric, (observedDims X).zip L)⟩, some (observedDims X), none⟩, .ok ()) := by
      obtain ⟨g1, g2⟩ := (validateMetric_ok .amplitude (amplitudeOf e.params) metric).mpr hP
      have g2' : validateMetric .amplitude metric ((amplitudeOf e.params).mp.getD {}) = .ok () := g2
      have hL' : binSampling (decide (metric = .image)) (((amplitudeOf e.params).mp.getD {}).nBins.getD 100) (observedDims X) X = .ok L := hL
      unfold fit
      rw [(check_ok_iff X).mpr hX, e0, g1]
      dsimp only
      rw [g2']
      dsimp only
      rw [hL']
      rfl
    cases hfun : e.params.function with
    | none => unfold callFunction at hf; rw [hfun] at hf; cases hf
    | some f =>
      unfold callFunction at hf
      rw [hfun] at hf
      refine ⟨A, f, by rw [hfit], ?_, rfl, hf⟩
      rw [hfit]
      have hk : e.params.metric = some metric := hP.known
      unfold transformAmplitude
      dsimp only
      rw [(check_ok_iff X).mpr hX]
      simp only [ok_bind, attr, recipe, amplitudeOf, hk, hA]
  · rintro ⟨A, f, h, hA, hfun, hf⟩
    obtain ⟨hX, metric, L, hP, hL, hfit⟩ := fit_success .amplitude X _ h
    rw [e0] at hP hL hfit
    rw [hfit] at hA
    have hk : e.params.metric = some metric := hP.known
    unfold transformAmplitude at hA
    dsimp only at hA
    rw [(check_ok_iff X).mpr hX] at hA
    simp only [ok_bind, attr, recipe, amplitudeOf, hk] at hA
    rw [bind_ok] at hA
    have hfA : callFunction e.params A = .ok s := by unfold callFunction; rw [hfun]; exact hf
    rw [sfit_eq E nJobs X e metric L A hX hP hL hA, hfA]
    exact ⟨rfl, rfl⟩

/-- **C115**, parameters: `None` is accepted as `function`, but then `fit` raises `TypeError` on every collection on which the amplitudes can be computed. -/
theorem C115_refuted_no_function (E : Engine K Q) (nJobs : Nat) (X : List (List (Pt K Q))) (e : SEst K Q) (hf : e.params.function = none) (A : List (List (Option K)))
    (h : (fit .amplitude X (new (amplitudeOf e.params))).2 = .ok ()) (hA : transformAmplitude E nJobs X (fit .amplitude X (new (amplitudeOf e.params))).1 = .ok A) :
    (sfit E nJobs X e).2 = .error .typeError := by
  have e0 : (new (amplitudeOf e.params) : Est K Q).params = amplitudeOf e.params := rfl
  obtain ⟨hX, metric, L, hP, hL, hfit⟩ := fit_success .amplitude X _ h
  rw [e0] at hP hL hfit
  rw [hfit] at hA
  have hk : e.params.metric = some metric := hP.known
  unfold transformAmplitude at hA
  dsimp only at hA
  rw [(check_ok_iff X).mpr hX] at hA
  simp only [ok_bind, attr, recipe, amplitudeOf, hk] at hA
  rw [bind_ok] at hA
  have hfA : callFunction e.params A = .error .typeError := by unfold callFunction; rw [hf]
  rw [sfit_eq E nJobs X e metric L A hX hP hL hA, hfA]

/-! ### `transform` and `inverse_transform` -/

theorem fitted_attrs (E : Engine K Q) (nJobs : Nat) (X : List (List (Pt K Q))) (e : SEst K Q) (h : (sfit E nJobs X e).2 = .ok ()) : ∃ eff, (sfit E nJobs X e).1.eff = some eff := by
  obtain ⟨-, metric, L, A, s, -, -, -, -, he⟩ := sfit_success E nJobs X e h
  rw [he]
  exact ⟨_, rfl⟩

theorem stransform_eq (e : SEst K Q) (eff : Eff K Q) (s : K) (he : e.eff = some eff) (hs : e.scale = some (some s)) (h0 : s ≠ 0) (X : List (List (Pt K Q))) (hX : Valid X) :
    stransform X e = .ok (finite (scaled (1 / s) X)) := by
  unfold stransform
  rw [he, hs]
  dsimp only
  rw [(check_ok_iff X).mpr hX]
  simp only [ok_bind, attr, finite, scaled, List.map_map, Function.comp_def, divScale, if_neg h0]
  simp only [div_eq_inv_mul, mul_one]

theorem sinverse_eq (e : SEst K Q) (eff : Eff K Q) (s : K) (he : e.eff = some eff) (hs : e.scale = some (some s)) (X : List (List (Pt K Q))) (hX : Valid X) :
    sinverse X e = .ok (finite (scaled s X)) := by
  unfold sinverse
  rw [he, hs]
  dsimp only
  rw [(check_ok_iff X).mpr hX]
  simp only [ok_bind, attr, finite, scaled, List.map_map, Function.comp_def, mulScale]
  simp only [mul_comm]

theorem scaled_scaled (a b : K) (h : a * b = 1) (X : List (List (Pt K Q))) : scaled a (scaled b X) = X := by
  unfold scaled
  simp only [List.map_map, Function.comp_def, ← mul_assoc, h, one_mul, List.map_id']

end

section
variable {K Q : Type} [Field K] [LinearOrder K] [IsStrictOrderedRing K] [FloorRing K] [LinearOrder Q]

theorem valid_scaled (c : K) (hc : 0 < c) (X : List (List (Pt K Q))) (hX : Valid X) : Valid (scaled c X) := by
  obtain ⟨h1, h2, h3⟩ := hX
  unfold scaled
  refine ⟨by simpa using h1, ?_, ?_⟩
  · intro D hD D' hD'
    rw [List.mem_map] at hD hD'
    obtain ⟨D, hD, rfl⟩ := hD
    obtain ⟨D', hD', rfl⟩ := hD'
    simpa using h2 D hD D' hD'
  · intro D hD p hp
    rw [List.mem_map] at hD
    obtain ⟨D, hD, rfl⟩ := hD
    rw [List.mem_map] at hp
    obtain ⟨p, hp, rfl⟩ := hp
    exact mul_le_mul_of_nonneg_left (h3 D hD p hp) hc.le

/-- **C115**, results: after a successful `fit` with a scale `s ≠ 0`, `transform` divides and `inverse_transform` multiplies all births and deaths by `s`, for every valid collection. If `s > 0` the
results are valid collections, and the two methods undo each other. If `s < 0` and a point is off the diagonal, `inverse_transform` refuses what `transform` returned. -/
theorem C115_transform (E : Engine K Q) (nJobs : Nat) (X : List (List (Pt K Q))) (e : SEst K Q) (h : (sfit E nJobs X e).2 = .ok ()) (s : K) (hs : (sfit E nJobs X e).1.scale = some (some s)) (h0 : s ≠ 0)
    (X' : List (List (Pt K Q))) (hX' : Valid X') :
    stransform X' (sfit E nJobs X e).1 = .ok (finite (scaled (1 / s) X')) ∧ sinverse X' (sfit E nJobs X e).1 = .ok (finite (scaled s X')) ∧
    (0 < s → Valid (scaled (1 / s) X') ∧ Valid (scaled s X') ∧ sinverse (scaled (1 / s) X') (sfit E nJobs X e).1 = .ok (finite X') ∧
      stransform (scaled s X') (sfit E nJobs X e).1 = .ok (finite X')) ∧
    (s < 0 → (∃ D ∈ X', ∃ p ∈ D, p.b ≠ p.d) → sinverse (scaled (1 / s) X') (sfit E nJobs X e).1 = .error .valueError) := by
  obtain ⟨eff, heff⟩ := fitted_attrs E nJobs X e h
  refine ⟨stransform_eq _ eff s heff hs h0 X' hX', sinverse_eq _ eff s heff hs X' hX', ?_, ?_⟩
  · intro hp
    have v1 := valid_scaled (1 / s) (one_div_pos.mpr hp) X' hX'
    have v2 := valid_scaled s hp X' hX'
    refine ⟨v1, v2, ?_, ?_⟩
    · rw [sinverse_eq _ eff s heff hs _ v1, scaled_scaled s (1 / s) (mul_one_div_cancel h0)]
    · rw [stransform_eq _ eff s heff hs h0 _ v2, scaled_scaled (1 / s) s (one_div_mul_cancel h0)]
  · rintro hn ⟨D, hD, p, hp, hne⟩
    have hbad : check (scaled (1 / s) X') = .error .valueError := by
      unfold check
      have hne' : scaled (1 / s) X' ≠ [] := by unfold scaled; simpa using hX'.1
      rw [if_neg hne']
      split
      · rfl
      · rw [if_pos]
        rw [List.any_eq_true]
        refine ⟨D.map fun p => ⟨1 / s * p.b, 1 / s * p.d, p.q⟩, List.mem_map_of_mem hD, ?_⟩
        rw [List.any_eq_true]
        refine ⟨_, List.mem_map_of_mem hp, ?_⟩
        rw [decide_eq_true_eq]
        exact mul_lt_mul_of_neg_left (lt_of_le_of_ne (hX'.2.2 D hD p hp) hne) (one_div_neg.mpr hn)
    unfold sinverse
    rw [heff]
    dsimp only
    rw [hbad]
    rfl

/-- **C115**, scale 0: after a successful `fit` whose scale is 0 or NaN, every birth and death that `transform` returns is infinite or NaN. -/
theorem C115_zero_scale (E : Engine K Q) (nJobs : Nat) (X : List (List (Pt K Q))) (e : SEst K Q) (h : (sfit E nJobs X e).2 = .ok ())
    (hs : (sfit E nJobs X e).1.scale = some (some 0) ∨ (sfit E nJobs X e).1.scale = some none) (X' : List (List (Pt K Q))) (hX' : Valid X') :
    ∃ Y, stransform X' (sfit E nJobs X e).1 = .ok Y ∧ Y.length = X'.length ∧ ∀ D ∈ Y, ∀ p ∈ D, p.b = none ∧ p.d = none := by
  obtain ⟨eff, heff⟩ := fitted_attrs E nJobs X e h
  refine ⟨X'.map fun D => D.map fun p => ⟨none, none, p.q⟩, ?_, by simp, ?_⟩
  · unfold stransform
    rw [heff]
    dsimp only
    rw [(check_ok_iff X').mpr hX']
    rcases hs with hs | hs <;> rw [hs] <;> simp [ok_bind, attr, divScale]
  · intro D hD p hp
    rw [List.mem_map] at hD
    obtain ⟨D, -, rfl⟩ := hD
    rw [List.mem_map] at hp
    obtain ⟨p, -, rfl⟩ := hp
    exact ⟨rfl, rfl⟩

/-! ### Units -/

theorem pointsIn_scaled (c : K) (D : List (Pt K Q)) (q : Q) :
    pointsIn (D.map fun p => (⟨c * p.b, c * p.d, p.q⟩ : Pt K Q)) q = (pointsIn D q).map fun p => ⟨c * p.b, c * p.d, p.q⟩ := by
  unfold pointsIn
  rw [List.filter_map]
  rfl

theorem bottleneckOne_scaled (c : K) (hc : 0 < c) (D : List (Pt K Q)) (h : D ≠ []) : bottleneckOne (D.map fun p => (⟨c * p.b, c * p.d, p.q⟩ : Pt K Q)) = c * bottleneckOne D := by
  have h1 := (bottleneckOne_spec D h).2
  have h2 := (bottleneckOne_spec (D.map fun p => (⟨c * p.b, c * p.d, p.q⟩ : Pt K Q)) (by simpa using h)).2
  refine h2.unique ⟨?_, ?_⟩
  · obtain ⟨p, hp, hy⟩ := h1.1
    refine ⟨_, List.mem_map_of_mem hp, ?_⟩
    rw [hy]
    dsimp only
    rw [← mul_sub, mul_div_assoc, abs_mul, abs_of_pos hc]
  · rintro y ⟨p', hp', rfl⟩
    rw [List.mem_map] at hp'
    obtain ⟨p, hp, rfl⟩ := hp'
    dsimp only
    rw [← mul_sub, mul_div_assoc, abs_mul, abs_of_pos hc]
    exact mul_le_mul_of_nonneg_left (h1.2 ⟨p, hp, rfl⟩) hc.le

theorem training_scaled (c : K) (hc : 0 < c) (X : List (List (Pt K Q))) (hT : Training X) : Training (scaled c X) := by
  refine ⟨valid_scaled c hc X hT.1, ?_⟩
  intro D hD
  unfold scaled at hD
  rw [List.getElem?_map, Option.map_eq_some_iff] at hD
  obtain ⟨D, hD, rfl⟩ := hD
  obtain ⟨h1, h2⟩ := hT.2 D hD
  refine ⟨by simpa using h1, ?_⟩
  intro p hp
  rw [List.mem_map] at hp
  obtain ⟨p, hp, rfl⟩ := hp
  intro D1 hD1 D2 hD2
  unfold scaled at hD1 hD2
  rw [List.mem_map] at hD1 hD2
  obtain ⟨D1, hD1, rfl⟩ := hD1
  obtain ⟨D2, hD2, rfl⟩ := hD2
  rw [pointsIn_scaled, pointsIn_scaled, List.length_map, List.length_map]
  exact h2 p hp D1 hD1 D2 hD2

theorem observedDims_scaled (c : K) (X : List (List (Pt K Q))) : observedDims (scaled c X) = observedDims X := by
  unfold observedDims scaled
  cases X with
  | nil => rfl
  | cons D t => simp only [List.map_cons, List.headD_cons, List.map_map, Function.comp_def]

/-- Amplitudes of one diagram and one dimension for metrics based on matchings. -/
def matchingAmp (E : Engine K Q) (metric : Metric) (p : Option K) (D : List (Pt K Q)) : K :=
  if metric = .bottleneck then bottleneckOne D else E.norm p (D.map fun x => (x.d - x.b) / 2)

theorem training_points (X : List (List (Pt K Q))) (hT : Training X) : ∀ D ∈ X, ∀ q ∈ observedDims X, pointsIn D q ≠ [] := by
  intro D hD q hq
  obtain ⟨-, h2, h3⟩ := training_dims X hT
  obtain ⟨D', hD', p, hp, hpq⟩ := h3 q hq
  have h := h2 q hq D hD D' hD'
  have : 0 < (pointsIn D' q).length := List.length_pos_of_mem ((mem_pointsIn D' q p).mpr ⟨hp, hpq⟩)
  intro h0
  rw [h0, List.length_nil] at h
  omega

theorem matching_array (E : Engine K Q) (metric : Metric) (hm : metric = .bottleneck ∨ metric = .wasserstein) (eff : Eff K Q) (X : List (List (Pt K Q))) (hT : Training X) (nJobs : Nat) (hn : 1 ≤ nJobs) :
    parallelAmplitude (amplitudeFn E metric eff) (observedDims X) nJobs X =
      .ok (X.map fun D => (observedDims X).map fun q => some (matchingAmp E metric (eff.mp.p.getD (some 2)) (pointsIn D q))) := by
  obtain ⟨h1, h2, -⟩ := training_dims X hT
  unfold parallelAmplitude
  rw [perDim_eq _ (fun _ D => some (matchingAmp E metric (eff.mp.p.getD (some 2)) D)) (observedDims X) nJobs hn h1 X hT.1.1 h2]
  intro q hq Y hY hsub
  unfold amplitudeFn matchingAmp
  rcases hm with rfl | rfl
  · dsimp only
    have : bottleneckAmplitudes (Y.map fun D => pointsIn D q) = .ok ((Y.map fun D => pointsIn D q).map bottleneckOne) := by
      unfold bottleneckAmplitudes
      rw [mapM_ok (g := bottleneckOne)]
      intro D hD
      rw [List.mem_map] at hD
      obtain ⟨D, hD, rfl⟩ := hD
      exact (bottleneckOne_spec _ (training_points X hT D (hsub D hD) q hq)).1
    rw [this, ok_bind, List.map_map, List.map_map]
    rfl
  · dsimp only
    rw [List.map_map]
    rfl

/-- **C115**, units: with `bottleneck` or `wasserstein` and a homogeneous function such as the maximum, multiplying all births and deaths of the training collection by `c > 0` multiplies the scale by `c`,
so that the output of `fit_transform` stays the same. -/
theorem C115_units (E : Engine K Q) (hE : HomogeneousNorms E) (e : SEst K Q) (metric : Metric) (hm : metric = .bottleneck ∨ metric = .wasserstein) (hk : e.params.metric = some metric)
    (f : List (List (Option K)) → PyM (Option K)) (hf : e.params.function = some f) (hh : Homogeneous f) (X : List (List (Pt K Q))) (hT : Training X) (nJobs nJobs' : Nat) (hn : 1 ≤ nJobs) (hn' : 1 ≤ nJobs')
    (h : (sfit E nJobs X e).2 = .ok ()) (s : Option K) (hs : (sfit E nJobs X e).1.scale = some s) (c : K) (hc : 0 < c) :
    (sfit E nJobs' (scaled c X) e).2 = .ok () ∧ (sfit E nJobs' (scaled c X) e).1.scale = some (s.map (c * ·)) ∧
      stransform (scaled c X) (sfit E nJobs' (scaled c X) e).1 = stransform X (sfit E nJobs X e).1 := by
  obtain ⟨hX, metric', L, A, s', hP, hL, hA, hcf, he⟩ := sfit_success E nJobs X e h
  have : metric' = metric := Option.some.inj (hP.known.symm.trans hk)
  subst this
  rw [he] at hs
  have hss := Option.some.inj hs
  subst hss
  rw [matching_array E metric' hm _ X hT nJobs hn, Except.ok.injEq] at hA
  have hT' := training_scaled c hc X hT
  obtain ⟨g1, g2, g3⟩ := training_dims _ hT'
  obtain ⟨L', -, -, hL', -⟩ := binSampling_spec (decide (metric' = .image)) ((e.params.mp.getD {}).nBins.getD 100) (observedDims (scaled c X)) (scaled c X) g1 g2 g3 hT'.1.2.2
  have hA' := matching_array E metric' hm ⟨storeWeight metric' (e.params.mp.getD {}), some (metric', (observedDims (scaled c X)).zip L')⟩ (scaled c X) hT' nJobs' hn'
  have hval : (scaled c X).map (fun D => (observedDims (scaled c X)).map fun q => some (matchingAmp E metric' ((storeWeight metric' (e.params.mp.getD {})).p.getD (some 2)) (pointsIn D q))) =
      A.map fun r => r.map fun x => x.map (c * ·) := by
    rw [← hA, observedDims_scaled]
    unfold scaled
    rw [List.map_map, List.map_map]
    refine List.map_congr_left fun D hD => ?_
    simp only [Function.comp_def, List.map_map]
    refine List.map_congr_left fun q hq => ?_
    rw [Option.map_some, pointsIn_scaled]
    unfold matchingAmp
    rcases hm with rfl | rfl
    · rw [if_pos rfl, if_pos rfl, bottleneckOne_scaled c hc _ (training_points X hT D hD q hq)]
    · rw [if_neg (by decide), if_neg (by decide), ← hE _ _ _ hc, List.map_map, List.map_map]
      simp only [Function.comp_def, ← mul_sub, mul_div_assoc]
  rw [hval] at hA'
  have hcf' : callFunction e.params (A.map fun r => r.map fun x => x.map (c * ·)) = .ok (s'.map (c * ·)) := by
    unfold callFunction at hcf ⊢
    rw [hf] at hcf ⊢
    dsimp only at hcf ⊢
    rw [hh A c hc, hcf]
    rfl
  have hfit := sfit_eq E nJobs' (scaled c X) e metric' L' _ hT'.1 hP hL' hA'
  rw [hcf'] at hfit
  rw [hfit, he]
  refine ⟨rfl, rfl, ?_⟩
  unfold stransform
  dsimp only
  rw [(check_ok_iff X).mpr hX, (check_ok_iff _).mpr hT'.1]
  simp only [ok_bind, attr]
  unfold scaled
  simp only [List.map_map, Function.comp_def]
  have hdiv : ∀ x, divScale (s'.map (c * ·)) (c * x) = divScale s' x := by
    intro x
    cases s' with
    | none => rfl
    | some s =>
      unfold divScale
      simp only [Option.map_some, mul_eq_zero, hc.ne', false_or]
      rw [mul_div_mul_left _ _ hc.ne']
  simp only [hdiv]

/-- **C115**, idempotence: likewise, if the scale is positive, fitting a scaler again on the output gives the scale 1 and leaves it unchanged. -/
theorem C115_idempotent (E : Engine K Q) (hE : HomogeneousNorms E) (e : SEst K Q) (metric : Metric) (hm : metric = .bottleneck ∨ metric = .wasserstein) (hk : e.params.metric = some metric)
    (f : List (List (Option K)) → PyM (Option K)) (hf : e.params.function = some f) (hh : Homogeneous f) (X : List (List (Pt K Q))) (hT : Training X) (nJobs nJobs' : Nat) (hn : 1 ≤ nJobs) (hn' : 1 ≤ nJobs')
    (h : (sfit E nJobs X e).2 = .ok ()) (s : K) (hs : (sfit E nJobs X e).1.scale = some (some s)) (hp : 0 < s) :
    ∃ Y, stransform X (sfit E nJobs X e).1 = .ok (finite Y) ∧ (sfit E nJobs' Y e).2 = .ok () ∧ (sfit E nJobs' Y e).1.scale = some (some 1) ∧ stransform Y (sfit E nJobs' Y e).1 = .ok (finite Y) := by
  have h1 := (C115_transform E nJobs X e h s hs hp.ne' X hT.1).1
  obtain ⟨g1, g2, g3⟩ := C115_units E hE e metric hm hk f hf hh X hT nJobs nJobs' hn hn' h (some s) hs (1 / s) (one_div_pos.mpr hp)
  refine ⟨scaled (1 / s) X, h1, g1, ?_, g3.trans h1⟩
  rw [g2, Option.map_some, one_div_mul_cancel hp.ne']

end

/-! ### Histories and failures -/

section
variable {K Q : Type} [Field K] [LinearOrder K] [FloorRing K] [LinearOrder Q]

theorem sfit_fresh (E : Engine K Q) (nJobs : Nat) (X : List (List (Pt K Q))) (e : SEst K Q) (h : (sfit E nJobs X e).2 = .ok ()) : sfit E nJobs X e = sfit E nJobs X (snew e.params) := by
  obtain ⟨hX, metric, L, A, s, hP, hL, hA, hf, -⟩ := sfit_success E nJobs X e h
  rw [sfit_eq E nJobs X e metric L A hX hP hL hA, sfit_eq E nJobs X (snew e.params) metric L A hX hP hL hA, hf]
  have : callFunction (snew e.params : SEst K Q).params A = .ok s := hf
  rw [this]
  rfl

theorem srun_params (E : Engine K Q) (ops : List (SOp K Q)) (e : SEst K Q) : (srun E ops e).params = slastSet e.params ops := by
  unfold srun
  induction ops generalizing e with
  | nil => rfl
  | cons op ops ih =>
    rw [List.foldl_cons, ih]
    cases op with
    | set P => rfl
    | fit n X =>
      dsimp only [slastSet]
      rw [sfit_params]

/-- **C115**, before fitting: an object that has seen parameter changes and calls of `fit` with invalid collections only refuses to transform anything, with `NotFittedError`. -/
theorem C115_not_fitted (E : Engine K Q) (P₀ : SParams K) (ops : List (SOp K Q)) (h : ∀ n X, .fit n X ∈ ops → ¬ Valid X) (X : List (List (Pt K Q))) :
    stransform X (srun E ops (snew P₀)) = .error .notFitted ∧ sinverse X (srun E ops (snew P₀)) = .error .notFitted := by
  have key : ∀ (ops : List (SOp K Q)) (e : SEst K Q), (∀ n X, .fit n X ∈ ops → ¬ Valid X) → e.eff = none → (srun E ops e).eff = none := by
    intro ops
    induction ops with
    | nil => exact fun e _ he => he
    | cons op ops ih =>
      intro e h he
      refine ih _ (fun n X hX => h n X (List.mem_cons_of_mem _ hX)) ?_
      cases op with
      | set P => exact he
      | fit n X =>
        have hX := h n X List.mem_cons_self
        dsimp only
        unfold sfit
        cases hc : check X with
        | error er => exact he
        | ok u => exact absurd ((Gtda.Props.Vectorizers.check_ok_iff X).mp hc) hX
  have := key ops (snew P₀) h rfl
  unfold stransform sinverse
  rw [this]
  exact ⟨rfl, rfl⟩

/-- **C115**, histories: after any sequence of parameter changes and calls of `fit` (some of which may have failed), a successful `fit` leaves the object exactly as a new object with the current parameters
fitted on the same collection. -/
theorem C115_history (E : Engine K Q) (P₀ : SParams K) (ops : List (SOp K Q)) (nJobs : Nat) (X : List (List (Pt K Q))) (h : (sfit E nJobs X (srun E ops (snew P₀))).2 = .ok ()) :
    sfit E nJobs X (srun E ops (snew P₀)) = sfit E nJobs X (snew (slastSet P₀ ops)) := by
  rw [sfit_fresh E nJobs X _ h, srun_params]
  rfl

/-- **C115**, failures and parameter changes: once a `fit` has succeeded, parameter changes and calls of `fit` that fail have no effect on what `transform` and `inverse_transform` return. -/
theorem C115_failed_fits (E : Engine K Q) (nJobs : Nat) (X : List (List (Pt K Q))) (e : SEst K Q) (h : (sfit E nJobs X e).2 = .ok ()) (ops : List (SOp K Q))
    (hops : ∀ l n Y r, ops = l ++ .fit n Y :: r → (sfit E n Y (srun E l (sfit E nJobs X e).1)).2 ≠ .ok ()) (X' : List (List (Pt K Q))) :
    stransform X' (srun E ops (sfit E nJobs X e).1) = stransform X' (sfit E nJobs X e).1 ∧ sinverse X' (srun E ops (sfit E nJobs X e).1) = sinverse X' (sfit E nJobs X e).1 := by
  have key : ∀ (ops : List (SOp K Q)) (e' : SEst K Q), e'.eff ≠ none → (∀ l n Y r, ops = l ++ .fit n Y :: r → (sfit E n Y (srun E l e')).2 ≠ .ok ()) →
      (srun E ops e').scale = e'.scale ∧ (srun E ops e').eff ≠ none := by
    intro ops
    induction ops with
    | nil => exact fun e' h _ => ⟨rfl, h⟩
    | cons op ops ih =>
      intro e' he' hops
      have hstep : ∃ e'', srun E (op :: ops) e' = srun E ops e'' ∧ (∀ l, srun E (op :: l) e' = srun E l e'') ∧ e''.scale = e'.scale ∧ e''.eff ≠ none := by
        cases op with
        | set P => exact ⟨ssetParams P e', rfl, fun _ => rfl, rfl, he'⟩
        | fit n Y =>
          obtain ⟨h1, h2⟩ := sfit_failed E n Y e' (hops [] n Y ops rfl)
          exact ⟨(sfit E n Y e').1, rfl, fun _ => rfl, h1, h2 he'⟩
      obtain ⟨e'', h1, h2, h3, h4⟩ := hstep
      obtain ⟨g1, g2⟩ := ih e'' h4 fun l n Y r hl => by
        have := hops (op :: l) n Y r (by rw [hl]; rfl)
        rwa [h2] at this
      rw [h1]
      exact ⟨g1.trans h3, g2⟩
  obtain ⟨eff, heff⟩ := fitted_attrs E nJobs X e h
  obtain ⟨h1, h2⟩ := key ops _ (by rw [heff]; exact Option.some_ne_none _) hops
  obtain ⟨eff', heff'⟩ := Option.ne_none_iff_exists'.mp h2
  unfold stransform sinverse
  rw [h1, heff, heff']
  exact ⟨rfl, rfl⟩

end

/-! ### Witnesses and examples -/

/-- `np.max`: NaN if an entry is. -/
def maxFn {K : Type} [Field K] [LinearOrder K] (A : List (List (Option K))) : PyM (Option K) :=
  match A.flatten.mapM id with
  | none => .ok none
  | some l => (npMax l).map some

theorem foldl_max_mul {K : Type} [Field K] [LinearOrder K] [IsStrictOrderedRing K] (c : K) (hc : 0 < c) (l : List K) (x : K) : (l.map (c * ·)).foldl max (c * x) = c * l.foldl max x := by
  induction l generalizing x with
  | nil => rfl
  | cons y l ih =>
    simp only [List.map_cons, List.foldl_cons]
    rw [← mul_max_of_nonneg _ _ hc.le, ih]

theorem mapM_id_map {K : Type} (g : K → K) (l : List (Option K)) : (l.map fun x => x.map g).mapM id = (l.mapM id).map fun v => v.map g := by
  induction l with
  | nil => rfl
  | cons x l ih =>
    simp only [List.map_cons, List.mapM_cons, ih, id]
    cases x with
    | none => rfl
    | some x => cases l.mapM id <;> rfl

/-- The maximum is homogeneous. -/
theorem maxFn_homogeneous {K : Type} [Field K] [LinearOrder K] [IsStrictOrderedRing K] : Homogeneous (maxFn (K := K)) := by
  intro A c hc
  unfold maxFn
  have : (A.map fun r => r.map fun x => x.map (c * ·)).flatten = A.flatten.map fun x => x.map (c * ·) := by rw [List.map_flatten]
  rw [this, mapM_id_map]
  cases A.flatten.mapM id with
  | none => rfl
  | some l =>
    cases l with
    | nil => rfl
    | cons x l =>
      simp only [Option.map_some, List.map_cons, npMax]
      rw [foldl_max_mul c hc]
      rfl

def scP : SParams ℚ := ⟨some .bottleneck, none, some maxFn⟩

/-- **C115**, failures: after a failed first `fit` the object counts as fitted, and `transform` raises `AttributeError` instead of `NotFittedError`. -/
theorem C115_refuted_not_fitted :
    (sfit dmE 1 vecBad (snew scP)).2 = .error .valueError ∧ stransform vecX (snew scP) = .error .notFitted ∧ stransform vecX (sfit dmE 1 vecBad (snew scP)).1 = .error .attributeError ∧
      sinverse vecX (snew scP) = .error .notFitted ∧ sinverse vecX (sfit dmE 1 vecBad (snew scP)).1 = .error .attributeError := by
  refine ⟨?_, ?_, ?_, ?_, ?_⟩ <;> decide +kernel

/-- **C115**, negative scales: a function with negative values is accepted, but then the two methods do not undo each other: `inverse_transform` raises `ValueError` on the result of `transform`. -/
theorem C115_refuted_negative_scale :
    let e := (sfit dmE 1 vecX (snew { scP with function := some fun A => (maxFn A).map fun s => s.map fun x => -x })).1
    e.scale = some (some (-2)) ∧ ∃ Y, stransform vecX e = .ok (finite Y) ∧ sinverse Y e = .error .valueError := by
  refine ⟨by decide +kernel, scaled (1 / -2) vecX, by decide +kernel, by decide +kernel⟩

/-- **C115**, scale 0: if all training points are on the diagonal, the default scaler accepts them and then returns no finite births and deaths. -/
theorem C115_refuted_zero_scale :
    let e := (sfit dmE 1 [[⟨1, 1, 0⟩]] (snew scP)).1
    (sfit dmE 1 [[⟨1, 1, 0⟩]] (snew scP)).2 = .ok () ∧ e.scale = some (some 0) ∧ stransform [[⟨0, 2, 0⟩]] e = .ok [[⟨none, none, 0⟩]] := by
  decide +kernel

example : (sfit dmE 2 vecX (snew scP)).2 = .ok () ∧ (sfit dmE 2 vecX (snew scP)).1.scale = some (some 2) ∧
    stransform vecX (sfit dmE 2 vecX (snew scP)).1 = .ok (finite [[⟨0, 1, 0⟩, ⟨1 / 2, 3 / 2, 0⟩, ⟨0, 1 / 2, 1⟩], [⟨0, 2, 0⟩, ⟨1 / 2, 2, 1⟩, ⟨1, 1, 0⟩]]) := by decide +kernel
example : (sfit dmE 1 vecX (srun dmE [.set { scP with mp := some { p := some (some 1) } }, .fit 1 vecX, .set scP, .fit 1 vecBad] (snew scP))).2 = .ok () := by decide +kernel
/-- There are engines with homogeneous norms. -/
example : HomogeneousNorms (⟨⟨fun _ _ I => I, fun x _ => x, 0⟩, fun _ v => v.sum, fun _ _ _ => 0, fun _ _ _ _ => 0⟩ : Engine ℚ Nat) := by
  intro p v c _
  simpa using List.sum_map_mul_left v id c

/-- The only failing call of a history, as in the theorem on failures. -/
example : (sfit dmE 1 vecBad (sfit dmE 1 vecX (snew scP)).1).2 ≠ .ok () := by decide +kernel

/-- `C115_not_fitted`: a diagram whose points have a negative lifetime. -/
example : ¬ Valid [[(⟨2, 1, 0⟩ : Pt ℚ Nat)]] := fun h => absurd ((Gtda.Props.Vectorizers.check_ok_iff [[(⟨2, 1, 0⟩ : Pt ℚ Nat)]]).mpr h) (by decide +kernel)

end Gtda.Props
