import Verif.Props.ScalerObject
import Verif.Props.UnitsFeatures

set_option autoImplicit false
set_option linter.unusedSectionVars false

/-!
# C143: diagram preprocessors used one after the other
-/

namespace Gtda.Props.DiagramSequence
open Gtda.Py Gtda.Parallel Gtda.Diagrams Gtda.DiagramMetrics Gtda.Spec.DiagramMetrics Gtda.Spec.Vectorizers Gtda.ScalerObject Gtda.Spec.ScalerObject Gtda.Spec.Units
open Gtda.Vectorizers (check observedDims)
open Gtda.Props.DiagramMetrics Gtda.Props.ScalerObject Gtda.Props
open Gtda.Props.Vectorizers (check_ok_iff observedDims_spec training_dims)

variable {K Q : Type} [Field K] [LinearOrder K] [IsStrictOrderedRing K] [LinearOrder Q]

theorem scaled_eq_moved (c : K) : (scaled c : List (List (Pt K Q)) → _) = movedAll c 0 := by
  funext X
  unfold scaled movedAll moved
  refine List.map_congr_left fun D _ => List.map_congr_left fun p _ => ?_
  rw [add_zero, add_zero]

theorem filterDiagrams_scaled {c : K} (hc : 0 < c) (X : List (List (Pt K Q))) (fd : List Q) (e : K) :
    filterDiagrams (scaled c X) fd (c * e) = Except.map (scaled c) (filterDiagrams X fd e) := by
  rw [scaled_eq_moved]
  exact UnitsFeatures.filterDiagrams_moved hc X fd e

/-- The filtered collection is again a collection of diagrams. -/
theorem filtered_valid (X R : List (List (Pt K Q))) (fd : List Q) (e : K) (hX : Valid X) (hfd : fd.Nodup) (h : ∀ q, q ∉ fd → EqualCounts X q) (hR : filterDiagrams X fd e = .ok R) : Valid R := by
  rw [filterDiagrams_eq X fd e hX.1 h] at hR
  cases hR
  refine ⟨by simpa using hX.1, ?_, ?_⟩
  · intro A hA B hB
    obtain ⟨D, hD, rfl⟩ := List.mem_map.mp hA
    obtain ⟨D', hD', rfl⟩ := List.mem_map.mp hB
    unfold filterOne
    rw [List.length_append, List.length_append, List.length_flatMap, List.length_flatMap, List.length_flatMap, List.length_flatMap]
    congr 2
    · refine List.map_congr_left fun q _ => ?_
      rw [List.length_append, List.length_append, List.length_replicate, List.length_replicate]
      have h1 := longLived_le_width X e q D hD
      have h2 := longLived_le_width X e q D' hD'
      omega
    · refine List.map_congr_left fun q hq => ?_
      refine h q ?_ D hD D' hD'
      simpa using (List.mem_filter.mp hq).2
  · intro A hA p hp
    obtain ⟨D, hD, rfl⟩ := List.mem_map.mp hA
    unfold filterOne at hp
    rcases List.mem_append.mp hp with hp | hp
    · obtain ⟨q, -, hp⟩ := List.mem_flatMap.mp hp
      rcases List.mem_append.mp hp with hp | hp
      · exact hX.2.2 D hD p (List.mem_filter.mp hp).1
      · rw [(List.mem_replicate.mp hp).2]
        exact le_refl _
    · obtain ⟨q, -, hp⟩ := List.mem_flatMap.mp hp
      exact hX.2.2 D hD p (List.mem_filter.mp hp).1

/-- Where the points of the filtered collection come from. -/
theorem mem_filtered (X : List (List (Pt K Q))) (fd : List Q) (e : K) (D : List (Pt K Q)) (p : Pt K Q) (hp : p ∈ filterOne X fd e D) : p ∈ D ∨ p.d - p.b = 0 := by
  unfold filterOne at hp
  rcases List.mem_append.mp hp with hp | hp
  · obtain ⟨q, -, hp⟩ := List.mem_flatMap.mp hp
    rcases List.mem_append.mp hp with hp | hp
    · exact .inl (List.mem_filter.mp hp).1
    · rw [(List.mem_replicate.mp hp).2]
      exact .inr (sub_self _)
  · obtain ⟨q, -, hp⟩ := List.mem_flatMap.mp hp
    exact .inl (List.mem_filter.mp hp).1

/-- Points with lifetime above the threshold, and points of other dimensions, stay. -/
theorem kept (X : List (List (Pt K Q))) (fd : List Q) (hfd : fd.Nodup) (e : K) (D : List (Pt K Q)) (hD : D ∈ X) (h : ∀ q, EqualCounts X q) (p : Pt K Q) (hp : p ∈ D)
    (hk : e < p.d - p.b ∨ p.q ∉ fd) : p ∈ filterOne X fd e D := by
  have hpq : p ∈ pointsIn D p.q := List.mem_filter.mpr ⟨hp, by simp⟩
  have : p ∈ pointsIn (filterOne X fd e D) p.q := by
    by_cases hq : p.q ∈ fd
    · rw [pointsIn_filterOne_mem X fd hfd e D p.q hq, List.mem_append, longLived_eq_filter]
      refine .inl (List.mem_filter.mpr ⟨hpq, ?_⟩)
      rcases hk with hk | hk
      · exact decide_eq_true hk
      · exact absurd hq hk
    · rwa [pointsIn_filterOne_not_mem X fd hfd e D hD p.q hq (h p.q)]
  exact (List.mem_filter.mp this).1

/-- Fitting a scaler on what filtering returns is possible. -/
theorem filtered_training (X R : List (List (Pt K Q))) (fd : List Q) (e : K) (hT : Training X) (hfd : fd.Nodup) (h : ∀ q, EqualCounts X q) (hR : filterDiagrams X fd e = .ok R) : Training R := by
  have hv := filtered_valid X R fd e hT.1 hfd (fun q _ => h q) hR
  refine ⟨hv, ?_⟩
  rw [filterDiagrams_eq X fd e hT.1.1 (fun q _ => h q)] at hR
  cases hR
  intro D' hD'
  rw [List.getElem?_map, Option.map_eq_some_iff] at hD'
  obtain ⟨D, hD, rfl⟩ := hD'
  refine ⟨?_, fun p _ => equalCounts_filter X fd hfd e p.q (fun _ => h p.q)⟩
  obtain ⟨p, hp⟩ := List.exists_mem_of_ne_nil D (hT.2 D hD).1
  have hDX := List.mem_of_getElem? hD
  by_cases hq : p.q ∈ fd
  · have : pointsIn (filterOne X fd e D) p.q ≠ [] := by
      rw [pointsIn_filterOne_mem X fd hfd e D p.q hq]
      intro h0
      have h1 := congrArg List.length h0
      rw [List.length_append, List.length_replicate, List.length_nil] at h1
      have h2 : 1 ≤ widthOf X e p.q := Nat.le_max_right _ _
      omega
    intro h0
    rw [h0] at this
    exact this rfl
  · exact List.ne_nil_of_mem (kept X fd hfd e D hDX h p hp (.inr hq))

theorem maxFn_some (A : List (List K)) (hA : A.flatten ≠ []) : ∃ m, maxFn (A.map fun r => r.map some) = .ok (some m) ∧ IsGreatest {y | ∃ r ∈ A, y ∈ r} m := by
  obtain ⟨m, hm, hg⟩ := npMax_spec A.flatten hA
  refine ⟨m, ?_, ?_⟩
  · unfold maxFn
    have : (A.map fun r => r.map some).flatten = A.flatten.map some := by rw [List.map_flatten]
    have h2 : ∀ l : List K, (l.map some).mapM id = some l := by
      intro l
      induction l with
      | nil => rfl
      | cons x l ih => simp only [List.map_cons, List.mapM_cons, ih, id]; rfl
    rw [this, h2]
    simp only [hm]
    rfl
  · have : {y | y ∈ A.flatten} = {y | ∃ r ∈ A, y ∈ r} := by
      ext y
      simp only [List.mem_flatten, Set.mem_ofPred_eq]
    rw [← this]
    exact hg

end Gtda.Props.DiagramSequence

namespace Gtda.Props
open Gtda.Py Gtda.Parallel Gtda.Diagrams Gtda.DiagramMetrics Gtda.Spec.DiagramMetrics Gtda.Spec.Vectorizers Gtda.ScalerObject Gtda.Spec.ScalerObject
open Gtda.Vectorizers (check observedDims)
open Gtda.Props.DiagramMetrics Gtda.Props.ScalerObject Gtda.Props.DiagramSequence
open Gtda.Props.Vectorizers (check_ok_iff observedDims_spec training_dims)

/-- `Scaler()`: metric `"bottleneck"`, no metric parameters, function `np.max`. -/
def defaultScaler {K : Type} [Field K] [LinearOrder K] : SParams K := ⟨some .bottleneck, none, some maxFn⟩

/-- The lifetimes of all points of a collection. -/
def allLifetimes {K Q : Type} [Sub K] (X : List (List (Pt K Q))) : Set K := {y | ∃ D ∈ X, ∃ p ∈ D, y = p.d - p.b}

section
variable {K Q : Type} [Field K] [LinearOrder K] [IsStrictOrderedRing K] [FloorRing K] [LinearOrder Q]

/-- **C143**, units of the threshold: with a scaler of positive scale `s`, `Scaler` and then `Filtering(epsilon)` return the same array as `Filtering(s * epsilon)` and then the same scaler. -/
theorem C143_exchange (E : Engine K Q) (nJobs : Nat) (X : List (List (Pt K Q))) (e : SEst K Q) (hfit : (sfit E nJobs X e).2 = .ok ()) (s : K) (hs : (sfit E nJobs X e).1.scale = some (some s)) (hp : 0 < s)
    (X' : List (List (Pt K Q))) (hX' : Valid X') (fd : List Q) (hfd : fd.Nodup) (h : ∀ q, q ∉ fd → EqualCounts X' q) (ε : K) :
    ∃ Y R R', stransform X' (sfit E nJobs X e).1 = .ok (finite Y) ∧ filterDiagrams Y fd ε = .ok R' ∧ filterDiagrams X' fd (s * ε) = .ok R ∧ stransform R (sfit E nJobs X e).1 = .ok (finite R') := by
  have hR := filterDiagrams_eq X' fd (s * ε) hX'.1 h
  have hv := filtered_valid X' _ fd (s * ε) hX' hfd h hR
  refine ⟨scaled (1 / s) X', _, scaled (1 / s) _, (C115_transform E nJobs X e hfit s hs hp.ne' X' hX').1, ?_, hR, (C115_transform E nJobs X e hfit s hs hp.ne' _ hv).1⟩
  have := filterDiagrams_scaled (one_div_pos.mpr hp) X' fd (s * ε)
  rw [← mul_assoc, one_div_mul_cancel hp.ne', one_mul, hR] at this
  exact this

/-- **C143**, the default scaler: `fit` succeeds on any training collection, and the scale is half the longest lifetime. -/
theorem C143_default_scale (E : Engine K Q) (nJobs : Nat) (hn : 1 ≤ nJobs) (X : List (List (Pt K Q))) (hT : Training X) (h : ∀ q, EqualCounts X q) :
    (sfit E nJobs X (snew defaultScaler)).2 = .ok () ∧ ∃ L, IsGreatest (allLifetimes X) L ∧ 0 ≤ L ∧ (sfit E nJobs X (snew defaultScaler)).1.scale = some (some (L / 2)) := by
  obtain ⟨g1, g2, g3⟩ := training_dims X hT
  obtain ⟨Lb, -, -, hLb, -⟩ := binSampling_spec (decide (Metric.bottleneck = .image)) 100 (observedDims X) X g1 g2 g3 hT.1.2.2
  have hP : ValidParams .amplitude (amplitudeOf (snew defaultScaler : SEst K Q).params) .bottleneck := (validateMetric_ok .amplitude _ _).mp ⟨rfl, rfl⟩
  have hA := matching_array E .bottleneck (.inl rfl) ⟨storeWeight .bottleneck {}, some (.bottleneck, (observedDims X).zip Lb)⟩ X hT nJobs hn
  have hfit := sfit_eq E nJobs X (snew defaultScaler) .bottleneck Lb _ hT.1 hP hLb hA
  have hA' : (X.map fun D => (observedDims X).map fun q => some (matchingAmp E .bottleneck (((storeWeight .bottleneck {} : MParams K)).p.getD (some 2)) (pointsIn D q))) =
      (X.map fun D => (observedDims X).map fun q => bottleneckOne (pointsIn D q)).map fun r => r.map some := by
    rw [List.map_map]
    refine List.map_congr_left fun D _ => ?_
    rw [Function.comp_apply, List.map_map]
    rfl
  have hne : (X.map fun D => (observedDims X).map fun q => bottleneckOne (pointsIn D q)).flatten ≠ [] := by
    obtain ⟨D, hD⟩ := List.exists_mem_of_ne_nil X hT.1.1
    obtain ⟨q, hq⟩ := List.exists_mem_of_ne_nil _ g1
    exact List.ne_nil_of_mem (List.mem_flatten.mpr ⟨_, List.mem_map_of_mem hD, List.mem_map_of_mem hq⟩)
  obtain ⟨m, hm, hg⟩ := maxFn_some _ hne
  have hcall : callFunction (snew defaultScaler : SEst K Q).params (X.map fun D => (observedDims X).map fun q => some (matchingAmp E .bottleneck (((storeWeight .bottleneck {} : MParams K)).p.getD (some 2)) (pointsIn D q))) = .ok (some m) := by
    rw [hA']
    exact hm
  rw [hcall] at hfit
  have hmem : ∀ D ∈ X, ∀ p ∈ D, p.q ∈ observedDims X := by
    intro D hD p hp
    obtain ⟨D0, Xt, rfl⟩ := List.exists_cons_of_ne_nil hT.1.1
    have hD0 := h p.q D hD D0 List.mem_cons_self
    have hpos : 0 < (pointsIn D p.q).length := List.length_pos_of_mem ((mem_pointsIn D p.q p).mpr ⟨hp, rfl⟩)
    rw [hD0] at hpos
    obtain ⟨p', hp'⟩ := List.exists_mem_of_length_pos hpos
    obtain ⟨h1, h2⟩ := (mem_pointsIn D0 p.q p').mp hp'
    unfold observedDims
    rw [List.mem_insertionSort, List.mem_dedup, List.mem_map]
    exact ⟨p', h1, h2⟩
  have habs : ∀ D ∈ X, ∀ p ∈ D, |(p.d - p.b) / 2| = (p.d - p.b) / 2 := by
    intro D hD p hp
    have := hT.1.2.2 D hD p hp
    rw [abs_of_nonneg]
    exact div_nonneg (sub_nonneg.mpr this) zero_le_two
  have h2 : m * 2 / 2 = m := mul_div_cancel_right₀ _ two_ne_zero
  rw [hfit]
  have hgr : IsGreatest (allLifetimes X) (m * 2) := by
    constructor
    · obtain ⟨r, hr, hmr⟩ := hg.1
      obtain ⟨D, hD, rfl⟩ := List.mem_map.mp hr
      obtain ⟨q, hq, hb⟩ := List.mem_map.mp hmr
      obtain ⟨p, hp, hpe⟩ := (bottleneckOne_spec _ (training_points X hT D hD q hq)).2.1
      have hpD := ((mem_pointsIn D q p).mp hp).1
      refine ⟨D, hD, p, hpD, ?_⟩
      rw [← hb, hpe, habs D hD p hpD]
      exact div_mul_cancel₀ _ two_ne_zero
    · rintro y ⟨D, hD, p, hp, rfl⟩
      have hq := hmem D hD p hp
      have h1 : bottleneckOne (pointsIn D p.q) ≤ m := hg.2 ⟨_, List.mem_map_of_mem hD, List.mem_map_of_mem hq⟩
      have h3 := (bottleneckOne_spec _ (training_points X hT D hD p.q hq)).2.2 ⟨p, (mem_pointsIn D p.q p).mpr ⟨hp, rfl⟩, rfl⟩
      rw [habs D hD p hp] at h3
      exact (div_le_iff₀ zero_lt_two).mp (h3.trans h1)
  refine ⟨rfl, m * 2, hgr, ?_, ?_⟩
  · obtain ⟨D, hD, p, hp, he⟩ := hgr.1
    rw [he]
    exact sub_nonneg.mpr (hT.1.2.2 D hD p hp)
  · rw [h2]

/-- **C143**, relative thresholds: after the default scaler, fitted on a collection with longest lifetime `L > 0`, `Filtering(epsilon)` keeps in every filtered dimension exactly the points whose lifetime exceeds
`epsilon * L / 2`, in order, with births and deaths divided by `L / 2`, followed by points on the diagonal; the points of other dimensions are only rescaled. -/
theorem C143_relative_threshold (E : Engine K Q) (nJobs : Nat) (hn : 1 ≤ nJobs) (X : List (List (Pt K Q))) (hT : Training X) (h : ∀ q, EqualCounts X q) (L : K) (hL : IsGreatest (allLifetimes X) L) (h0 : 0 < L)
    (X' : List (List (Pt K Q))) (hX' : Valid X') (fd : List Q) (hfd : fd.Nodup) (h' : ∀ q, q ∉ fd → EqualCounts X' q) (ε : K) :
    ∃ Y R, stransform X' (sfit E nJobs X (snew defaultScaler)).1 = .ok (finite Y) ∧ filterDiagrams Y fd ε = .ok R ∧ R.length = X'.length ∧
      ∀ (i : Nat) D D', X'[i]? = some D → R[i]? = some D' →
        (∀ q ∈ fd, ∃ pads : List (Pt K Q), pointsIn D' q = ((longLived (ε * L / 2) D q).map fun p => ⟨2 / L * p.b, 2 / L * p.d, p.q⟩) ++ pads ∧ ∀ p ∈ pads, p.b = p.d) ∧
        (∀ q, q ∉ fd → pointsIn D' q = (pointsIn D q).map fun p => ⟨2 / L * p.b, 2 / L * p.d, p.q⟩) := by
  obtain ⟨hfit, L', hL', -, hs⟩ := C143_default_scale E nJobs hn X hT h
  have : L' = L := hL'.unique hL
  subst this
  have hp : 0 < L' / 2 := half_pos h0
  have ht := (C115_transform E nJobs X _ hfit _ hs hp.ne' X' hX').1
  have hR := filterDiagrams_scaled (one_div_pos.mpr hp) X' fd (L' / 2 * ε)
  rw [← mul_assoc, one_div_mul_cancel hp.ne', one_mul] at hR
  obtain ⟨R0, h1, h2, h3⟩ := C22_filtering X' fd (L' / 2 * ε) hX'.1 hfd h'
  rw [h1] at hR
  refine ⟨_, scaled (1 / (L' / 2)) R0, ht, hR, by unfold scaled; rw [List.length_map, h2], ?_⟩
  intro i D D' hD hD'
  unfold scaled at hD'
  rw [List.getElem?_map, Option.map_eq_some_iff] at hD'
  obtain ⟨D0, hD0, rfl⟩ := hD'
  obtain ⟨g1, g2⟩ := h3 i D D0 hD hD0
  have hc : 1 / (L' / 2) = 2 / L' := one_div_div _ _
  have he : L' / 2 * ε = ε * L' / 2 := by rw [mul_comm, mul_div_assoc]
  constructor
  · intro q hq
    obtain ⟨pads, e1, e2⟩ := g1 q hq
    refine ⟨pads.map fun p => ⟨2 / L' * p.b, 2 / L' * p.d, p.q⟩, ?_, ?_⟩
    · rw [pointsIn_scaled, e1, List.map_append, hc, he]
    · intro p hp
      obtain ⟨p', hp', rfl⟩ := List.mem_map.mp hp
      dsimp only
      rw [e2 p' hp']
  · intro q hq
    rw [pointsIn_scaled, g2 q hq, hc]

/-- **C143**, fitting after filtering: filtering with a threshold below the longest lifetime, in any dimensions, does not change the scale the default scaler finds. -/
theorem C143_filter_then_fit (E : Engine K Q) (nJobs nJobs' : Nat) (hn : 1 ≤ nJobs) (hn' : 1 ≤ nJobs') (X : List (List (Pt K Q))) (hT : Training X) (h : ∀ q, EqualCounts X q) (fd : List Q) (hfd : fd.Nodup)
    (e : K) (he : 0 ≤ e) (hL : ∃ y ∈ allLifetimes X, e < y) :
    ∃ R, filterDiagrams X fd e = .ok R ∧ (sfit E nJobs' R (snew defaultScaler)).2 = .ok () ∧
      (sfit E nJobs' R (snew defaultScaler)).1.scale = (sfit E nJobs X (snew defaultScaler)).1.scale ∧
      ∀ X' : List (List (Pt K Q)), stransform X' (sfit E nJobs' R (snew defaultScaler)).1 = stransform X' (sfit E nJobs X (snew defaultScaler)).1 := by
  have hR := filterDiagrams_eq X fd e hT.1.1 (fun q _ => h q)
  have hTR := filtered_training X _ fd e hT hfd h hR
  obtain ⟨f1, L, hg, h0, hs⟩ := C143_default_scale E nJobs hn X hT h
  obtain ⟨f2, L', hg', h0', hs'⟩ := C143_default_scale E nJobs' hn' _ hTR (fun q => equalCounts_filter X fd hfd e q (fun _ => h q))
  have hLL : L' = L := by
    refine hg'.unique ⟨?_, ?_⟩
    · obtain ⟨y, hy, hey⟩ := hL
      have : e < L := lt_of_lt_of_le hey (hg.2 hy)
      obtain ⟨D, hD, p, hp, rfl⟩ := hg.1
      exact ⟨_, List.mem_map_of_mem hD, p, kept X fd hfd e D hD h p hp (.inl this), rfl⟩
    · rintro y ⟨D', hD', p, hp, rfl⟩
      obtain ⟨D, hD, rfl⟩ := List.mem_map.mp hD'
      rcases mem_filtered X fd e D p hp with h1 | h1
      · exact hg.2 ⟨D, hD, p, h1, rfl⟩
      · rw [h1]; exact h0
  refine ⟨_, hR, f2, by rw [hs, hs', hLL], ?_⟩
  intro X'
  obtain ⟨eff, heff⟩ := fitted_attrs E nJobs X _ f1
  obtain ⟨eff', heff'⟩ := fitted_attrs E nJobs' _ _ f2
  unfold stransform
  rw [heff, heff', hs, hs', hLL]

/-- **C143**, fitting after removing everything: if no lifetime exceeds the threshold and all dimensions are filtered, the default scaler accepts the filtered collection and then returns no finite number. -/
theorem C143_refuted_nothing_left (E : Engine K Q) (nJobs : Nat) (hn : 1 ≤ nJobs) (X : List (List (Pt K Q))) (hT : Training X) (h : ∀ q, EqualCounts X q) (fd : List Q) (hfd : fd.Nodup) (e : K)
    (hall : ∀ D ∈ X, ∀ p ∈ D, p.q ∈ fd ∧ p.d - p.b ≤ e) (X' : List (List (Pt K Q))) (hX' : Valid X') :
    ∃ R Y, filterDiagrams X fd e = .ok R ∧ (sfit E nJobs R (snew defaultScaler)).2 = .ok () ∧ stransform X' (sfit E nJobs R (snew defaultScaler)).1 = .ok Y ∧ Y.length = X'.length ∧
      ∀ D ∈ Y, ∀ p ∈ D, p.b = none ∧ p.d = none := by
  have hR := filterDiagrams_eq X fd e hT.1.1 (fun q _ => h q)
  have hTR := filtered_training X _ fd e hT hfd h hR
  obtain ⟨f2, L', hg', h0', hs'⟩ := C143_default_scale E nJobs hn _ hTR (fun q => equalCounts_filter X fd hfd e q (fun _ => h q))
  have hL : L' = 0 := by
    obtain ⟨D', hD', p, hp, hy⟩ := hg'.1
    obtain ⟨D, hD, rfl⟩ := List.mem_map.mp hD'
    rw [hy]
    unfold filterOne at hp
    rcases List.mem_append.mp hp with hp | hp
    · obtain ⟨q, -, hp⟩ := List.mem_flatMap.mp hp
      rcases List.mem_append.mp hp with hp | hp
      · obtain ⟨h1, h2⟩ := List.mem_filter.mp hp
        simp only [Bool.and_eq_true, decide_eq_true_eq] at h2
        exact absurd h2.2 (not_lt.mpr (hall D hD p h1).2)
      · rw [(List.mem_replicate.mp hp).2]
        exact sub_self _
    · obtain ⟨q, hq, hp⟩ := List.mem_flatMap.mp hp
      obtain ⟨h1, h2⟩ := (mem_pointsIn D q p).mp hp
      have h3 := (List.mem_filter.mp hq).2
      simp only [decide_eq_true_eq] at h3
      exact absurd (h2 ▸ (hall D hD p h1).1) h3
  obtain ⟨Y, h1, h2, h3⟩ := C115_zero_scale E nJobs _ _ f2 (.inl (by rw [hs', hL, zero_div])) X' hX'
  exact ⟨_, Y, hR, f2, h1, h2, h3⟩

/-- **C143**, filters in different dimensions: filtering some dimensions with one threshold and others with another gives the same points in every dimension, in the same order, whichever comes first; in each
dimension they are those of the one filter that concerns it. -/
theorem C143_disjoint_filters (X : List (List (Pt K Q))) (hX : X ≠ []) (h : ∀ q, EqualCounts X q) (fd fd' : List Q) (hfd : fd.Nodup) (hfd' : fd'.Nodup) (hdis : ∀ q ∈ fd, q ∉ fd') (e e' : K) :
    ∃ R R' S S', filterDiagrams X fd e = .ok R ∧ filterDiagrams R fd' e' = .ok S ∧ filterDiagrams X fd' e' = .ok R' ∧ filterDiagrams R' fd e = .ok S' ∧ S.length = X.length ∧ S'.length = X.length ∧
      ∀ (i : Nat) A A' B B', R[i]? = some A → R'[i]? = some A' → S[i]? = some B → S'[i]? = some B' →
        ∀ q, pointsIn B q = pointsIn B' q ∧ (q ∈ fd → pointsIn B q = pointsIn A q) ∧ (q ∈ fd' → pointsIn B q = pointsIn A' q) := by
  have hR := filterDiagrams_eq X fd e hX (fun q _ => h q)
  have hR' := filterDiagrams_eq X fd' e' hX (fun q _ => h q)
  have hE : ∀ q, EqualCounts (X.map (filterOne X fd e)) q := fun q => equalCounts_filter X fd hfd e q (fun _ => h q)
  have hE' : ∀ q, EqualCounts (X.map (filterOne X fd' e')) q := fun q => equalCounts_filter X fd' hfd' e' q (fun _ => h q)
  have key : ∀ (fd fd' : List Q) (e e' : K), fd.Nodup → fd'.Nodup → (∀ q ∈ fd, q ∉ fd') → ∀ D ∈ X, ∀ q,
      (q ∈ fd → pointsIn (filterOne (X.map (filterOne X fd e)) fd' e' (filterOne X fd e D)) q = pointsIn (filterOne X fd e D) q) ∧
      (q ∉ fd → pointsIn (filterOne (X.map (filterOne X fd e)) fd' e' (filterOne X fd e D)) q = pointsIn (filterOne X fd' e' D) q) := by
    intro fd fd' e e' hfd hfd' hdis D hD q
    have hE : ∀ q, EqualCounts (X.map (filterOne X fd e)) q := fun q => equalCounts_filter X fd hfd e q (fun _ => h q)
    constructor
    · intro hq
      exact pointsIn_filterOne_not_mem _ fd' hfd' e' _ (List.mem_map_of_mem hD) q (hdis q hq) (hE q)
    · intro hq
      by_cases hq' : q ∈ fd'
      · have hpt : ∀ D ∈ X, longLived e' (filterOne X fd e D) q = longLived e' D q := by
          intro D hD
          rw [longLived_eq_filter, longLived_eq_filter, pointsIn_filterOne_not_mem X fd hfd e D hD q hq (h q)]
        have hw : widthOf (X.map (filterOne X fd e)) e' q = widthOf X e' q := by
          unfold widthOf
          rw [List.map_map]
          congr 2
          refine List.map_congr_left fun D hD => ?_
          rw [Function.comp_apply, hpt D hD]
        have hpad : padPt (X.map (filterOne X fd e)) e' q = padPt X e' q := by
          unfold padPt
          rw [List.flatMap_map]
          have : (X.flatMap fun D => longLived e' (filterOne X fd e D) q) = X.flatMap fun D => longLived e' D q := by
            rw [List.flatMap_def, List.flatMap_def]
            congr 1
            exact List.map_congr_left hpt
          rw [this]
        rw [pointsIn_filterOne_mem _ fd' hfd' e' _ q hq', pointsIn_filterOne_mem X fd' hfd' e' D q hq', hpt D hD, hw, hpad]
      · rw [pointsIn_filterOne_not_mem _ fd' hfd' e' _ (List.mem_map_of_mem hD) q hq' (hE q), pointsIn_filterOne_not_mem X fd' hfd' e' D hD q hq' (h q),
          pointsIn_filterOne_not_mem X fd hfd e D hD q hq (h q)]
  refine ⟨_, _, _, _, hR, filterDiagrams_eq _ fd' e' (by simpa using hX) (fun q _ => hE q), hR', filterDiagrams_eq _ fd e (by simpa using hX) (fun q _ => hE' q), by simp, by simp, ?_⟩
  intro i A A' B B' hA hA' hB hB' q
  rw [List.getElem?_map, Option.map_eq_some_iff] at hA hA' hB hB'
  obtain ⟨D, hD, rfl⟩ := hA
  obtain ⟨D', hD', rfl⟩ := hA'
  obtain ⟨C, hC, rfl⟩ := hB
  obtain ⟨C', hC', rfl⟩ := hB'
  rw [hD, Option.some.injEq] at hD'
  subst hD'
  rw [List.getElem?_map, hD, Option.map_some, Option.some.injEq] at hC hC'
  subst hC hC'
  have hDX := List.mem_of_getElem? hD
  obtain ⟨k1, k2⟩ := key fd fd' e e' hfd hfd' hdis D hDX q
  obtain ⟨k3, k4⟩ := key fd' fd e' e hfd' hfd (fun q h1 h2 => hdis q h2 h1) D hDX q
  refine ⟨?_, k1, fun hq => k2 fun hq' => hdis q hq' hq⟩
  by_cases hq : q ∈ fd
  · rw [k1 hq, k4 (hdis q hq)]
  · rw [k2 hq]
    by_cases hq' : q ∈ fd'
    · rw [k3 hq']
    · rw [k4 hq', pointsIn_filterOne_not_mem X fd' hfd' e' D hDX q hq' (h q), pointsIn_filterOne_not_mem X fd hfd e D hDX q hq (h q)]

/-- **C143**, `ForgetDimension` and `Scaler`: with a positive scale, the two return the same array in either order, and no existing array is modified. -/
theorem C143_forget_dimension (s : K) (hs : 0 < s) (h : Heap K) (r : Nat) (X : Arr K) (hr : h[r]? = some X) (hc : X.Consistent) (hv : ValidCollection X) :
    ∃ h1 r1 h2 r2 g1 t1 g2 t2 Y, scalerTransform s h r = .ok (h1, r1) ∧ forgetDimension h1 r1 = .ok (h2, r2) ∧ h2[r2]? = some Y ∧
      forgetDimension h r = .ok (g1, t1) ∧ scalerTransform s g1 t1 = .ok (g2, t2) ∧ g2[t2]? = some Y ∧ Preserved h h2 ∧ Preserved h g2 := by
  set f : List (Option (Ext K)) → List (Option (Ext K)) := fun p => p.set 2 (some ((⊤ : WithTop K) : Ext K)) with hf
  have forget : ∀ (h : Heap K) (r : Nat) (X : Arr K), h[r]? = some X → X.Consistent → ValidCollection X → forgetDimension h r = .ok (h ++ [mapTriples X f], h.length) := by
    intro h r X hr hc hv
    unfold forgetDimension
    rw [checkDiagramsRef_ok h r X hr hc hv, ok_bind]
    simp only [updateTriples]
    rw [modify_last]
    rfl
  have hcY : (mapTriples X (divT s)).Consistent := mapTriples_consistent X _ (fun p => by simp [divT]) hc
  have hvY : ValidCollection (mapTriples X (divT s)) := mapTriples_valid X hc hv _ (divX · s) (fun b d => divX_mono s hs b d) (fun b d q => divT_pos s hs b d q)
  have hcF : (mapTriples X f).Consistent := mapTriples_consistent X _ (fun p => by simp [hf]) hc
  have hvF : ValidCollection (mapTriples X f) := by
    obtain ⟨h', r', Y, e1, e2, -, -, -, e3⟩ := C24_forget_dimension h r X hr hc hv
    rw [forget h r X hr hc hv] at e1
    cases e1
    have hY : Y = mapTriples X f := by simpa using e2.symm
    subst hY
    rcases checkDiagrams_cases _ hcF with g | g
    · exact g.1
    · obtain ⟨-, er, g⟩ := g
      rw [e3] at g
      cases g
  have hrY : (h ++ [mapTriples X (divT s)])[h.length]? = some (mapTriples X (divT s)) := by simp
  have hrF : (h ++ [mapTriples X f])[h.length]? = some (mapTriples X f) := by simp
  have heq : mapTriples (mapTriples X f) (divT s) = mapTriples (mapTriples X (divT s)) f := by
    unfold mapTriples
    congr 1
    simp only [List.map_map]
    refine List.map_congr_left fun D hD => ?_
    simp only [Function.comp_apply, List.map_map]
    refine List.map_congr_left fun p hp => ?_
    obtain ⟨b, d, q, rfl, -⟩ := triple_of_valid X hc hv D hD p hp
    rw [Function.comp_apply, Function.comp_apply, divT_pos s hs]
    show divT s [some b, some d, some ((⊤ : WithTop K) : Ext K)] = _
    rw [divT_pos s hs]
    rfl
  refine ⟨_, _, _, _, _, _, _, _, _, scalerTransform_ok s h r X hr hc hv, forget _ _ _ hrY hcY hvY, by simp; rfl, forget h r X hr hc hv, scalerTransform_ok s _ _ _ hrF hcF hvF, by simp [heq], ?_, ?_⟩
  · rw [List.append_assoc]; exact preserved_append _ _
  · rw [List.append_assoc]; exact preserved_append _ _

end

/-! ### Witnesses and examples -/

/-- A training collection: longest lifetime 4. -/
def seqX : List (List (Pt ℚ Nat)) := [[⟨0, 2, 0⟩, ⟨1, 3, 0⟩, ⟨0, 1, 1⟩], [⟨0, 4, 0⟩, ⟨2, 2, 0⟩, ⟨1, 4, 1⟩]]

theorem seqX_counts : ∀ q, EqualCounts seqX q := by
  intro q D hD D' hD'
  simp only [seqX, List.mem_cons, List.not_mem_nil, or_false] at hD hD'
  rcases hD with rfl | rfl <;> rcases hD' with rfl | rfl <;> simp [pointsIn, List.filter_cons] <;> split_ifs <;> simp_all

theorem seqX_training : Training seqX := by
  refine ⟨⟨by decide, by decide +kernel, by decide +kernel⟩, ?_⟩
  intro D hD
  cases hD
  exact ⟨by decide, fun p _ => seqX_counts p.q⟩

theorem seqX_longest : IsGreatest (allLifetimes seqX) 4 := by
  constructor
  · exact ⟨_, List.mem_cons_of_mem _ List.mem_cons_self, ⟨0, 4, 0⟩, by decide +kernel, by norm_num⟩
  · rintro y ⟨D, hD, p, hp, rfl⟩
    revert D p
    decide +kernel

/-- **C143**: the threshold is not free of units: `Scaler` and then `Filtering(1)` is not `Filtering(1)` and then `Scaler`. -/
theorem C143_refuted_same_threshold :
    ∃ Y R R', stransform seqX (sfit dmE 1 seqX (snew defaultScaler)).1 = .ok (finite Y) ∧ filterDiagrams Y [0, 1] 1 = .ok R' ∧ filterDiagrams seqX [0, 1] 1 = .ok R ∧
      stransform R (sfit dmE 1 seqX (snew defaultScaler)).1 ≠ .ok (finite R') := by
  refine ⟨_, [[⟨0, 2, 0⟩, ⟨1, 3, 0⟩, ⟨1, 1, 1⟩], [⟨0, 4, 0⟩, ⟨0, 0, 0⟩, ⟨1, 4, 1⟩]], [[⟨0, 0, 0⟩, ⟨1 / 2, 1 / 2, 1⟩], [⟨0, 2, 0⟩, ⟨1 / 2, 2, 1⟩]],
    (C115_transform dmE 1 seqX _ (by decide +kernel) 2 (by decide +kernel) (by norm_num) seqX seqX_training.1).1, by decide +kernel, by decide +kernel, by decide +kernel⟩

/-- **C143**: with the sum of the half lifetimes for metric `wasserstein` with `p = 1`, filtering below the longest lifetime does change the scale. -/
theorem C143_refuted_wasserstein :
    let E : Engine ℚ Nat := ⟨⟨fun _ _ I => I, fun x _ => x, 0⟩, fun _ v => v.sum, fun _ _ _ => 0, fun _ _ _ _ => 0⟩
    let P : SParams ℚ := ⟨some .wasserstein, some { p := some (some 1) }, some maxFn⟩
    ∃ R, filterDiagrams [[(⟨0, 4, 0⟩ : Pt ℚ Nat), ⟨0, 1, 0⟩]] [0] 1 = .ok R ∧ (sfit E 1 [[⟨0, 4, 0⟩, ⟨0, 1, 0⟩]] (snew P)).1.scale = some (some (5 / 2)) ∧
      (sfit E 1 R (snew P)).2 = .ok () ∧ (sfit E 1 R (snew P)).1.scale = some (some 2) :=
  ⟨[[⟨0, 4, 0⟩]], by decide +kernel, by decide +kernel, by decide +kernel, by decide +kernel⟩

/-- **C143**: as arrays, the results of filters in different dimensions depend on their order: the blocks of dimensions are placed differently. -/
theorem C143_refuted_block_order :
    ∃ R R', filterDiagrams seqX [0] 1 = .ok R ∧ filterDiagrams seqX [1] 2 = .ok R' ∧ ∃ S S', filterDiagrams R [1] 2 = .ok S ∧ filterDiagrams R' [0] 1 = .ok S' ∧ S ≠ S' :=
  ⟨[[⟨0, 2, 0⟩, ⟨1, 3, 0⟩, ⟨0, 1, 1⟩], [⟨0, 4, 0⟩, ⟨0, 0, 0⟩, ⟨1, 4, 1⟩]], [[⟨1, 1, 1⟩, ⟨0, 2, 0⟩, ⟨1, 3, 0⟩], [⟨1, 4, 1⟩, ⟨0, 4, 0⟩, ⟨2, 2, 0⟩]], by decide +kernel, by decide +kernel,
    [[⟨1, 1, 1⟩, ⟨0, 2, 0⟩, ⟨1, 3, 0⟩], [⟨1, 4, 1⟩, ⟨0, 4, 0⟩, ⟨0, 0, 0⟩]], [[⟨0, 2, 0⟩, ⟨1, 3, 0⟩, ⟨1, 1, 1⟩], [⟨0, 4, 0⟩, ⟨0, 0, 0⟩, ⟨1, 4, 1⟩]], by decide +kernel, by decide +kernel, by decide +kernel⟩

example := C143_exchange dmE 1 seqX (snew defaultScaler) (by decide +kernel) 2 (by decide +kernel) (by norm_num) seqX seqX_training.1 [0] (by decide) (fun q _ => seqX_counts q) (1 / 2)
example := C143_default_scale dmE 2 (by decide) seqX seqX_training seqX_counts
example := C143_relative_threshold dmE 2 (by decide) seqX seqX_training seqX_counts 4 seqX_longest (by norm_num) seqX seqX_training.1 [0, 1] (by decide) (fun q _ => seqX_counts q) (1 / 2)
example : (longLived (1 / 2 * 4 / 2 : ℚ) [⟨0, 2, 0⟩, ⟨1, 3 / 2, 0⟩, ⟨0, 1, 1⟩] 0).map (fun p => (⟨2 / 4 * p.b, 2 / 4 * p.d, p.q⟩ : Pt ℚ Nat)) = [⟨0, 1, 0⟩] := by decide +kernel
example := C143_filter_then_fit dmE 1 2 (by decide) (by decide) seqX seqX_training seqX_counts [0, 1] (by decide) 3 (by norm_num) ⟨4, seqX_longest.1, by norm_num⟩
example := C143_refuted_nothing_left dmE 1 (by decide) seqX seqX_training seqX_counts [0, 1] (by decide) 4 (by decide +kernel) seqX seqX_training.1
example := C143_forget_dimension (3 / 2 : ℚ) (by norm_num) [exArr] 0 exArr rfl exArr_consistent exArr_valid
example := C143_disjoint_filters seqX (by decide) seqX_counts [0] [1] (by decide) (by decide) (by decide) 1 2

end Gtda.Props
