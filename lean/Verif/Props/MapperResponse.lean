import Verif.Props.Cover
import Verif.Props.MapperGaps

set_option autoImplicit false
set_option linter.unusedSectionVars false

/-!
# C144: how covers and clusterers of Mapper respond to their parameters
-/

namespace Gtda.Props.MapperResponse
open Gtda.Py Gtda.Mapper Gtda.Spec Gtda.Props

variable {K : Type} [Field K] [LinearOrder K] [IsStrictOrderedRing K]

/-- The step between intervals decreases with the overlap. -/
theorem step_le (n : Nat) (hn : 1 ≤ n) (f f' : K) (hf0 : 0 < f) (hff : f ≤ f') (hf1 : f' < 1) (T len len' : K) (hT : 0 ≤ T) (h : len * ((n : K) - ((n : K) - 1) * f) = T)
    (h' : len' * ((n : K) - ((n : K) - 1) * f') = T) : (1 - f') * len' ≤ (1 - f) * len := by
  have hn' : (1 : K) ≤ n := by exact_mod_cast hn
  have hD : 0 < (n : K) - ((n : K) - 1) * f := by nlinarith
  have hD' : 0 < (n : K) - ((n : K) - 1) * f' := by nlinarith
  rw [← eq_div_iff hD.ne'] at h
  rw [← eq_div_iff hD'.ne'] at h'
  rw [h, h', ← mul_div_assoc, ← mul_div_assoc, div_le_div_iff₀ hD' hD]
  nlinarith [mul_nonneg hT (sub_nonneg.mpr hff)]

/-- Intervals grow with the overlap. -/
theorem interval_nested (n : Nat) (hn : 1 ≤ n) (f f' : K) (hf0 : 0 < f) (hff : f ≤ f') (hf1 : f' < 1) (T len len' : K) (hT : 0 ≤ T) (h : len * ((n : K) - ((n : K) - 1) * f) = T)
    (h' : len' * ((n : K) - ((n : K) - 1) * f') = T) (k : Nat) (hk : k < n) :
    (k : K) * ((1 - f') * len') ≤ k * ((1 - f) * len) ∧ (k : K) * ((1 - f) * len) + len ≤ k * ((1 - f') * len') + len' := by
  have hs := step_le n hn f f' hf0 hff hf1 T len len' hT h h'
  have hk0 : (0 : K) ≤ k := Nat.cast_nonneg k
  have hk1 : (k : K) + 1 ≤ n := by exact_mod_cast hk
  refine ⟨mul_le_mul_of_nonneg_left hs hk0, ?_⟩
  have hm := mul_le_mul_of_nonneg_left hs (sub_nonneg.mpr hk1)
  nlinarith

variable [FloorRing K]

theorem findIdx_antitone (l : List K) (a b : K) (hab : a ≤ b) (g : Nat) (hg : l.findIdx? (fun x => decide (b ≤ x)) = some g) :
    ∃ g', l.findIdx? (fun x => decide (a ≤ x)) = some g' ∧ g' ≤ g := by
  rw [List.findIdx?_eq_some_iff_getElem] at hg
  obtain ⟨h1, h2, h3⟩ := hg
  cases h : l.findIdx? (fun x => decide (a ≤ x)) with
  | none =>
    rw [List.findIdx?_eq_none_iff] at h
    have := h l[g] (List.getElem_mem h1)
    simp only [decide_eq_true_eq, decide_eq_false_iff_not, not_le] at h2 this
    exact absurd (hab.trans h2) (not_le.mpr this)
  | some g' =>
    refine ⟨g', rfl, ?_⟩
    rw [List.findIdx?_eq_some_iff_getElem] at h
    obtain ⟨j1, j2, j3⟩ := h
    by_contra hlt
    have := j3 g (by omega)
    simp only [decide_eq_true_eq, decide_eq_false_iff_not, not_le] at h2 this
    exact absurd (hab.trans h2) (not_le.mpr this)

/-- Number of clusters after the cap. -/
theorem capped (num : Int) (cap : K) : (if cap < (num : K) then ⌊cap⌋ else num) = min num ⌊cap⌋ := by
  split
  · next h =>
    have : ⌊cap⌋ ≤ num := by
      have h1 := (Int.floor_le cap).trans h.le
      exact_mod_cast h1
    rw [min_eq_right this]
  · next h =>
    rw [min_eq_left]
    exact Int.le_floor.mpr (not_lt.mp h)

theorem simple_eq (ds : List K) (m f : K) : numClustersSimple ds m (some f) =
    match (ediff ds).findIdx? (fun g => decide (m ≤ g)) with
    | some g => min ((ds.length : Int) + 1 - g) ⌊f * ((ds.length : K) + 1)⌋
    | none => 1 := by
  unfold numClustersSimple
  cases (ediff ds).findIdx? (fun g => decide (m ≤ g)) with
  | none => rfl
  | some g => dsimp only; rw [capped]

theorem simple_gap (ds : List K) (m m' f : K) (hm : m ≤ m') (hf : 1 ≤ f * ((ds.length : K) + 1)) : numClustersSimple ds m' (some f) ≤ numClustersSimple ds m (some f) := by
  rw [simple_eq, simple_eq]
  have hfl : 1 ≤ ⌊f * ((ds.length : K) + 1)⌋ := Int.le_floor.mpr (by exact_mod_cast hf)
  cases h' : (ediff ds).findIdx? (fun g => decide (m' ≤ g)) with
  | some g =>
    obtain ⟨g', hg', hle⟩ := findIdx_antitone _ m m' hm g h'
    rw [hg']
    dsimp only
    have : (g' : Int) ≤ g := by exact_mod_cast hle
    exact min_le_min (by omega) le_rfl
  | none =>
    cases h : (ediff ds).findIdx? (fun g => decide (m ≤ g)) with
    | none => exact le_rfl
    | some g =>
      dsimp only
      refine le_min ?_ hfl
      rw [List.findIdx?_eq_some_iff_getElem] at h
      obtain ⟨h1, -⟩ := h
      rw [ediff_length] at h1
      omega

theorem simple_cap (ds : List K) (m f f' : K) (hf : f ≤ f') : numClustersSimple ds m (some f) ≤ numClustersSimple ds m (some f') := by
  rw [simple_eq, simple_eq]
  cases (ediff ds).findIdx? (fun g => decide (m ≤ g)) with
  | none => exact le_rfl
  | some g =>
    dsimp only
    refine min_le_min le_rfl (Int.floor_le_floor ?_)
    exact mul_le_mul_of_nonneg_right hf (by positivity)

theorem fit_eq {α : Type} (build : List α → PyM (Dendrogram K)) (cut : Int → Dendrogram K → PyM (List Nat)) (r f : K) (hr : 0 < r ∧ r ≤ 1) (hf : 0 < f ∧ f ≤ 1) (X : List α) (hX : 2 ≤ X.length)
    (tree : Dendrogram K) (hb : build X = .ok tree) (last : K) (hlast : tree.distances.getLast? = some last) :
    firstSimpleGapFit build cut (some r) (some f) X = (cut (numClustersSimple tree.distances (r * last) (some f)) tree).map fun labels => ⟨numClustersSimple tree.distances (r * last) (some f), labels⟩ := by
  unfold firstSimpleGapFit
  have e1 : ¬ X.length = 0 := by omega
  have e2 : ¬ X.length = 1 := by omega
  simp only [e1, e2, if_false, checkFraction, hr, hf, and_self, if_true, ok_bind, hb, hlast]
  cases cut (numClustersSimple tree.distances (r * last) (some f)) tree <;> rfl

/-! ### Units -/

theorem ediff_scaled (c : K) (ds : List K) : ediff (ds.map (c * ·)) = (ediff ds).map (c * ·) := by
  cases ds with
  | nil => rfl
  | cons d t =>
    unfold ediff
    simp only [List.map_cons]
    congr 1
    rw [← List.map_cons (f := (c * ·)), List.zipWith_map, List.map_zipWith]
    congr 1
    funext a b
    ring

theorem simple_scaled (c : K) (hc : 0 < c) (ds : List K) (m : K) (f : Option K) : numClustersSimple (ds.map (c * ·)) (c * m) f = numClustersSimple ds m f := by
  unfold numClustersSimple
  rw [ediff_scaled, List.findIdx?_map, List.length_map]
  have : ((fun g => decide (c * m ≤ g)) ∘ fun x => c * x) = fun g => decide (m ≤ g) := by
    funext g
    simp only [Function.comp_apply, mul_le_mul_iff_right₀ hc]
  rw [this]

theorem foldl_min_scaled (c : K) (hc : 0 < c) (l : List K) (x : K) : (l.map (c * ·)).foldl min (c * x) = c * l.foldl min x := by
  induction l generalizing x with
  | nil => rfl
  | cons y l ih =>
    simp only [List.map_cons, List.foldl_cons]
    rw [← mul_min_of_nonneg _ _ hc.le, ih]

theorem foldl_max_scaled (c : K) (hc : 0 < c) (l : List K) (x : K) : (l.map (c * ·)).foldl max (c * x) = c * l.foldl max x := by
  induction l generalizing x with
  | nil => rfl
  | cons y l ih =>
    simp only [List.map_cons, List.foldl_cons]
    rw [← mul_max_of_nonneg _ _ hc.le, ih]

/-- In other units, values have the same position relative to the edges of the bins. -/
theorem edges_scaled (c : K) (hc : 0 < c) (ds : List K) (k i : Nat) :
    ∃ α : K, 0 < α ∧ ∀ d ∈ ds, (histEdges (ds.map (c * ·)) k).getD i 0 - c * d = α * ((histEdges ds k).getD i 0 - d) := by
  cases ds with
  | nil => exact ⟨1, one_pos, fun d hd => absurd hd List.not_mem_nil⟩
  | cons x t =>
    by_cases hi : i < k + 1
    · unfold histEdges histRange linspace
      simp only [List.map_cons, foldl_min_scaled c hc, foldl_max_scaled c hc]
      by_cases he : t.foldl min x = t.foldl max x
      · rw [if_pos he, if_pos (by rw [he])]
        refine ⟨1, one_pos, fun d hd => ?_⟩
        have h1 := (foldl_min_spec t x).2 d hd
        have h2 := (foldl_max_spec t x).2 d hd
        have hdx : d = t.foldl max x := le_antisymm h2 (he ▸ h1)
        rw [List.getD_eq_getElem?_getD, List.getD_eq_getElem?_getD, List.getElem?_map, List.getElem?_map, List.getElem?_range hi]
        simp only [Option.map_some, Option.getD_some]
        rw [he, hdx]
        ring
      · have he' : ¬ c * t.foldl min x = c * t.foldl max x := fun h => he (mul_left_cancel₀ hc.ne' h)
        rw [if_neg he, if_neg he']
        refine ⟨c, hc, fun d hd => ?_⟩
        rw [List.getD_eq_getElem?_getD, List.getD_eq_getElem?_getD, List.getElem?_map, List.getElem?_map, List.getElem?_range hi]
        simp only [Option.map_some, Option.getD_some]
        ring
    · refine ⟨c, hc, fun d hd => ?_⟩
      have h0 : ∀ l : List K, (histEdges l k).getD i 0 = 0 := by
        intro l
        unfold histEdges linspace
        rw [List.getD_eq_getElem?_getD, List.getElem?_eq_none (by simp only [List.length_map, List.length_range]; omega)]
        rfl
      rw [h0, h0]
      ring

theorem edge_le (c : K) (hc : 0 < c) (ds : List K) (k i : Nat) (d : K) (hd : d ∈ ds) :
    ((histEdges (ds.map (c * ·)) k).getD i 0 ≤ c * d ↔ (histEdges ds k).getD i 0 ≤ d) ∧ (c * d < (histEdges (ds.map (c * ·)) k).getD i 0 ↔ d < (histEdges ds k).getD i 0) ∧
      (c * d ≤ (histEdges (ds.map (c * ·)) k).getD i 0 ↔ d ≤ (histEdges ds k).getD i 0) := by
  obtain ⟨α, hα, h⟩ := edges_scaled c hc ds k i
  have := h d hd
  refine ⟨?_, ?_, ?_⟩
  · rw [← sub_nonpos, this, ← sub_nonpos (a := (histEdges ds k).getD i 0)]
    constructor
    · intro h1; by_contra h2; exact absurd (mul_pos hα (not_le.mp h2)) (not_lt.mpr h1)
    · intro h1; exact mul_nonpos_of_nonneg_of_nonpos hα.le h1
  · rw [← sub_pos, this, ← sub_pos (b := d)]
    constructor
    · intro h1; by_contra h2; exact absurd h1 (not_lt.mpr (mul_nonpos_of_nonneg_of_nonpos hα.le (not_lt.mp h2)))
    · intro h1; exact mul_pos hα h1
  · rw [← sub_nonneg, this, ← sub_nonneg (b := d)]
    constructor
    · intro h1; by_contra h2; exact absurd h1 (not_le.mpr (mul_neg_of_pos_of_neg hα (not_le.mp h2)))
    · intro h1; exact mul_nonneg hα.le h1

theorem counts_scaled (c : K) (hc : 0 < c) (ds : List K) (k : Nat) : histCounts (ds.map (c * ·)) k = histCounts ds k := by
  unfold histCounts
  refine List.map_congr_left fun i _ => ?_
  rw [List.countP_map]
  refine List.countP_congr fun d hd => ?_
  simp only [Function.comp_apply, (edge_le c hc ds k i d hd).1, (edge_le c hc ds k (i + 1) d hd).2.1, (edge_le c hc ds k (i + 1) d hd).2.2]

theorem gapLoop_scaled (c : K) (hc : 0 < c) (ds : List K) (thr nStart fuel i : Nat) : gapLoop thr nStart (ds.map (c * ·)) fuel i = gapLoop thr nStart ds fuel i := by
  induction fuel generalizing i with
  | zero => rfl
  | succ fuel ih =>
    unfold gapLoop
    rw [counts_scaled c hc, ih]
    cases (histCounts ds (nStart + i)).findIdx? (isGap thr) with
    | none => rfl
    | some g =>
      dsimp only
      rw [List.countP_map]
      congr 2
      refine List.countP_congr fun d hd => ?_
      simp only [Function.comp_apply, (edge_le c hc ds (nStart + i) g d hd).2.2]

end Gtda.Props.MapperResponse

namespace Gtda.Props
open Gtda.Py Gtda.Mapper Gtda.Spec Gtda.Props.MapperResponse

/-- Clusterings by fewer clusters are coarser: what a dendrogram is cut into. -/
def NestedCuts {K : Type} (cut : Int → Dendrogram K → PyM (List Nat)) (tree : Dendrogram K) : Prop :=
  ∀ n m a b, n ≤ m → cut n tree = .ok a → cut m tree = .ok b → ∀ (i j x y : Nat), b[i]? = some x → b[j]? = some x → a[i]? = some y → a[j]? = some y

/-- Cutting looks at the tree, not at the merge distances. -/
def CutsByTree {K : Type} (cut : Int → Dendrogram K → PyM (List Nat)) : Prop :=
  ∀ n t t', t.children = t'.children → t.leaves = t'.leaves → cut n t = cut n t'

section
variable {K : Type} [Field K] [LinearOrder K] [IsStrictOrderedRing K] [FloorRing K]

/-- **C144**, overlap of uniform covers: with a larger `overlap_frac`, each of the intervals contains the one it replaces, so that on any later data each returned set is contained in a set returned with the
larger overlap. -/
theorem C144_overlap_uniform (n : Nat) (hn : 1 ≤ n) (f f' : K) (hf0 : 0 < f) (hff : f ≤ f') (hf1 : f' < 1) (X : List K) (hX : X ≠ []) (hd : n = 1 ∨ ∃ x ∈ X, ∃ y ∈ X, x ≠ y) (s s' : CoverState K) :
    ∃ ivs ivs', coverFit ⟨false, n, f⟩ s X = (⟨some ivs⟩, .ok ()) ∧ coverFit ⟨false, n, f'⟩ s' X = (⟨some ivs'⟩, .ok ()) ∧ ivs.length = n ∧ ivs'.length = n ∧
      (∀ (k : Nat) I I', ivs[k]? = some I → ivs'[k]? = some I' → ∀ x, InOpen I x → InOpen I' x) ∧
      ∀ Y : List K, ∃ M M', coverTransform ⟨some ivs⟩ Y = .ok M ∧ coverTransform ⟨some ivs'⟩ Y = .ok M' ∧ ∀ c ∈ M, ∃ c' ∈ M', ∀ i : Nat, c[i]? = some true → c'[i]? = some true := by
  obtain ⟨x, t, rfl⟩ := List.exists_cons_of_ne_nil hX
  obtain ⟨m1, m2⟩ := foldl_min_spec t x
  obtain ⟨M1, M2⟩ := foldl_max_spec t x
  have hle : t.foldl min x ≤ t.foldl max x := m2 _ M1
  have hlt : t.foldl min x < t.foldl max x ∨ n = 1 := by
    rcases hd with h | ⟨a, ha, b, hb, hne⟩
    · exact .inr h
    · left
      refine lt_of_le_of_ne hle fun he => hne ?_
      have h1 := le_antisymm (M2 a ha) (he ▸ m2 a ha)
      have h2 := le_antisymm (M2 b hb) (he ▸ m2 b hb)
      rw [h1, h2]
  obtain ⟨ivs, len, h1, h2, h3, -, h5, -⟩ := C40_uniform_cover n hn f hf0 (lt_of_le_of_lt hff hf1) (x :: t) _ _ ⟨m1, m2⟩ ⟨M1, M2⟩ hlt
  obtain ⟨ivs', len', h1', h2', h3', -, h5', -⟩ := C40_uniform_cover n hn f' (lt_of_lt_of_le hf0 hff) hf1 (x :: t) _ _ ⟨m1, m2⟩ ⟨M1, M2⟩ hlt
  have hnest : ∀ (k : Nat) I I', ivs[k]? = some I → ivs'[k]? = some I' → ∀ x, InOpen I x → InOpen I' x := by
    intro k I I' hI hI' y hy
    have hk : k < n := by
      rw [← h2]
      exact (List.getElem?_eq_some_iff.mp hI).1
    rw [h5 k hk, Option.some.injEq] at hI
    rw [h5' k hk, Option.some.injEq] at hI'
    subst hI hI'
    obtain ⟨e1, e2⟩ := interval_nested n hn f f' hf0 hff hf1 (t.foldl max x - t.foldl min x) len len' (sub_nonneg.mpr hle) (by rw [← h3]; ring) (by rw [← h3']; ring) k hk
    constructor
    · intro l hl
      dsimp only at hl
      split at hl
      · cases hl
      · next h0 =>
        cases hl
        have := hy.1 (t.foldl min x + k * ((1 - f) * len)) (if_neg h0)
        linarith
    · intro r hr
      dsimp only at hr
      split at hr
      · cases hr
      · next h0 =>
        cases hr
        have := hy.2 (t.foldl min x + k * ((1 - f) * len) + len) (if_neg h0)
        linarith
  refine ⟨ivs, ivs', by simp [coverFit, coverFitLimits, h1], by simp [coverFit, coverFitLimits, h1'], h2, h2', hnest, ?_⟩
  intro Y
  refine ⟨_, _, rfl, rfl, ?_⟩
  intro c hc
  rw [(C43_clean_masks _).1 c] at hc
  obtain ⟨hc, ht⟩ := hc
  obtain ⟨I, hI, rfl⟩ := List.mem_map.mp hc
  obtain ⟨k, hk, hkI⟩ := List.getElem_of_mem hI
  have hk' : k < ivs'.length := by rw [h2', ← h2]; exact hk
  have hsub : ∀ i : Nat, (Y.map (inIval I))[i]? = some true → (Y.map (inIval ivs'[k]))[i]? = some true := by
    intro i hi
    rw [List.getElem?_map, Option.map_eq_some_iff] at hi ⊢
    obtain ⟨y, hy, hiv⟩ := hi
    exact ⟨y, hy, (inIval_iff _ y).mpr (hnest k I _ (by rw [List.getElem?_eq_getElem hk, hkI]) (List.getElem?_eq_getElem hk') y ((inIval_iff I y).mp hiv))⟩
  refine ⟨Y.map (inIval ivs'[k]), ?_, hsub⟩
  rw [(C43_clean_masks _).1]
  refine ⟨List.mem_map_of_mem (List.getElem_mem hk'), ?_⟩
  obtain ⟨i, hi, hit⟩ := List.getElem_of_mem ht
  exact List.mem_of_getElem? (hsub i (by rw [List.getElem?_eq_getElem hi, hit]))

/-- **C144**, overlap of balanced covers: on the training data, each set returned with a smaller `overlap_frac` is contained in a set returned with the larger one. -/
theorem C144_overlap_balanced (n : Nat) (hn : 1 ≤ n) (f f' : K) (hf0 : 0 < f) (hff : f ≤ f') (hf1 : f' < 1) (X : List K) (hX : X ≠ []) (hd : n = 1 ∨ ∃ x ∈ X, ∃ y ∈ X, x ≠ y) (s s' : CoverState K) :
    ∃ M M', (coverFitTransform ⟨true, n, f⟩ s X).2 = .ok M ∧ (coverFitTransform ⟨true, n, f'⟩ s' X).2 = .ok M' ∧ ∀ c ∈ M, ∃ c' ∈ M', ∀ i : Nat, c[i]? = some true → c'[i]? = some true := by
  obtain ⟨-, M, len, -, -, h1, h2, h3, -, -⟩ := C41_balanced_cover n hn f hf0 (lt_of_le_of_lt hff hf1) s X hX hd
  obtain ⟨-, M', len', -, -, h1', h2', h3', -, -⟩ := C41_balanced_cover n hn f' (lt_of_lt_of_le hf0 hff) hf1 s' X hX hd
  refine ⟨M, M', h1, h1', ?_⟩
  intro c hc
  obtain ⟨ht, k, hk, rfl⟩ := (h3 c).mp hc
  obtain ⟨e1, e2⟩ := interval_nested n hn f f' hf0 hff hf1 (X.dedup.length : K) len len' (Nat.cast_nonneg _) h2 h2' k hk
  have hsub : ∀ i : Nat, (X.map fun x => decide (-(1 / 2) + k * ((1 - f) * len) < (distinctBelow X x : K) ∧ (distinctBelow X x : K) < -(1 / 2) + k * ((1 - f) * len) + len))[i]? = some true →
      (X.map fun x => decide (-(1 / 2) + k * ((1 - f') * len') < (distinctBelow X x : K) ∧ (distinctBelow X x : K) < -(1 / 2) + k * ((1 - f') * len') + len'))[i]? = some true := by
    intro i hi
    rw [List.getElem?_map, Option.map_eq_some_iff] at hi ⊢
    obtain ⟨y, hy, hiv⟩ := hi
    rw [decide_eq_true_eq] at hiv
    exact ⟨y, hy, decide_eq_true ⟨by linarith [hiv.1], by linarith [hiv.2]⟩⟩
  refine ⟨_, (h3' _).mpr ⟨?_, k, hk, rfl⟩, hsub⟩
  obtain ⟨i, hi, hit⟩ := List.getElem_of_mem ht
  exact List.mem_of_getElem? (hsub i (by rw [List.getElem?_eq_getElem hi, hit]))

/-- **C144**, `relative_gap_size`: if `max_fraction` allows at least one cluster, a larger `relative_gap_size` never gives more clusters, and a larger `max_fraction` never fewer. -/
theorem C144_gap_parameters {α : Type} (build : List α → PyM (Dendrogram K)) (cut : Int → Dendrogram K → PyM (List Nat)) (r r' f f' : K) (hr : 0 < r) (hrr : r ≤ r') (hr' : r' ≤ 1) (hf : 0 < f) (hff : f ≤ f')
    (hf' : f' ≤ 1) (X : List α) (hX : 2 ≤ X.length) (hcap : 1 ≤ f * (X.length : K)) (tree : Dendrogram K) (hb : build X = .ok tree) (hl : tree.distances.length + 1 = X.length) (last : K)
    (hlast : tree.distances.getLast? = some last) (h0 : 0 ≤ last) :
    ∃ n n' n'' : Int, firstSimpleGapFit build cut (some r) (some f) X = (cut n tree).map (fun labels => ⟨n, labels⟩) ∧
      firstSimpleGapFit build cut (some r') (some f) X = (cut n' tree).map (fun labels => ⟨n', labels⟩) ∧
      firstSimpleGapFit build cut (some r) (some f') X = (cut n'' tree).map (fun labels => ⟨n'', labels⟩) ∧ 1 ≤ n' ∧ n' ≤ n ∧ n ≤ n'' := by
  have hc : 1 ≤ f * ((tree.distances.length : K) + 1) := by
    rw [← hl] at hcap
    exact_mod_cast hcap
  have hfp : 0 < f ∧ f ≤ 1 := ⟨hf, hff.trans hf'⟩
  refine ⟨_, _, _, fit_eq build cut r f ⟨hr, hrr.trans hr'⟩ hfp X hX tree hb last hlast, fit_eq build cut r' f ⟨lt_of_lt_of_le hr hrr, hr'⟩ hfp X hX tree hb last hlast,
    fit_eq build cut r f' ⟨hr, hrr.trans hr'⟩ ⟨lt_of_lt_of_le hf hff, hf'⟩ X hX tree hb last hlast, ?_, simple_gap _ _ _ f (mul_le_mul_of_nonneg_right hrr h0) hc, simple_cap _ _ f f' hff⟩
  rw [simple_eq]
  cases h : (ediff tree.distances).findIdx? (fun g => decide (r' * last ≤ g)) with
  | none => exact le_rfl
  | some g =>
    dsimp only
    rw [List.findIdx?_eq_some_iff_getElem] at h
    obtain ⟨h1, -⟩ := h
    rw [ediff_length] at h1
    exact le_min (by omega) (Int.le_floor.mpr (by exact_mod_cast hc))

/-- **C144**, coarser clusterings: samples which `FirstSimpleGap` puts in one cluster stay together for any larger `relative_gap_size` and for any smaller `max_fraction` which allows one cluster. -/
theorem C144_coarser {α : Type} (build : List α → PyM (Dendrogram K)) (cut : Int → Dendrogram K → PyM (List Nat)) (r r' f f' : K) (hr : 0 < r) (hrr : r ≤ r') (hr' : r' ≤ 1) (hf : 0 < f) (hff : f ≤ f')
    (hf' : f' ≤ 1) (X : List α) (hX : 2 ≤ X.length) (hcap : 1 ≤ f * (X.length : K)) (tree : Dendrogram K) (hb : build X = .ok tree) (hl : tree.distances.length + 1 = X.length) (last : K)
    (hlast : tree.distances.getLast? = some last) (h0 : 0 ≤ last) (hcut : NestedCuts cut tree) (c c' : Clusters) (hc : firstSimpleGapFit build cut (some r) (some f') X = .ok c)
    (hc' : firstSimpleGapFit build cut (some r') (some f) X = .ok c') (i j : Nat) (x y : Nat) (hi : c.labels[i]? = some x) (hj : c.labels[j]? = some x) (hy : c'.labels[i]? = some y) :
    c'.labels[j]? = some y := by
  obtain ⟨n, n', n'', -, e2, e3, -, e4, e5⟩ := C144_gap_parameters build cut r r' f f' hr hrr hr' hf hff hf' X hX hcap tree hb hl last hlast h0
  rw [e3] at hc
  rw [e2] at hc'
  cases ha : cut n'' tree with
  | error e => rw [ha] at hc; cases hc
  | ok a =>
    cases hb' : cut n' tree with
    | error e => rw [hb'] at hc'; cases hc'
    | ok b =>
      rw [ha] at hc
      rw [hb'] at hc'
      cases hc
      cases hc'
      exact hcut n' n'' b a (e4.trans e5) hb' ha i j x y hi hj hy

/-- **C144**, units: multiplying the metric, and hence all merge distances, by a positive number changes neither `FirstSimpleGap` nor `FirstHistogramGap`. -/
theorem C144_units {α : Type} (build build' : List α → PyM (Dendrogram K)) (cut : Int → Dendrogram K → PyM (List Nat)) (hcut : CutsByTree cut) (c : K) (hc : 0 < c)
    (hb : ∀ X, build' X = (build X).map fun t => ⟨t.children, t.leaves, t.distances.map (c * ·)⟩) (relGap maxFrac : Option K) (thr nStart : Int) (fuel : Nat) (X : List α) :
    firstSimpleGapFit build' cut relGap maxFrac X = firstSimpleGapFit build cut relGap maxFrac X ∧
      firstHistogramGapFit fuel build' cut thr maxFrac nStart X = firstHistogramGapFit fuel build cut thr maxFrac nStart X := by
  constructor
  · unfold firstSimpleGapFit
    rw [hb X]
    split
    · rfl
    · cases checkFraction maxFrac with
      | error e => rfl
      | ok f =>
        cases checkFraction relGap with
        | error e => rfl
        | ok r =>
          simp only [ok_bind]
          split
          · rfl
          · cases build X with
            | error e => rfl
            | ok t =>
              simp only [Except.map, ok_bind]
              rw [List.getLast?_map]
              cases t.distances.getLast? with
              | none => rfl
              | some last =>
                simp only [Option.map_some]
                rw [mul_left_comm, simple_scaled c hc, hcut _ ⟨t.children, t.leaves, t.distances.map (c * ·)⟩ t rfl rfl]
  · unfold firstHistogramGapFit
    rw [hb X]
    split
    · rfl
    · split
      · rfl
      · cases checkFraction maxFrac with
        | error e => rfl
        | ok f =>
          simp only [ok_bind]
          split
          · rfl
          · split
            · rfl
            · cases build X with
              | error e => rfl
              | ok t =>
                simp only [Except.map, ok_bind]
                have : numClustersHistogram fuel (t.distances.map (c * ·)) thr.toNat nStart.toNat f = numClustersHistogram fuel t.distances thr.toNat nStart.toNat f := by
                  unfold numClustersHistogram
                  rw [gapLoop_scaled c hc, List.length_map]
                rw [this]
                cases numClustersHistogram fuel t.distances thr.toNat nStart.toNat f with
                | none => rfl
                | some n =>
                  dsimp only
                  rw [hcut n ⟨t.children, t.leaves, t.distances.map (c * ·)⟩ t rfl rfl]

end

/-- Non-vacuity of `C144_overlap_uniform`: three intervals on `[0, 10]`, with overlaps of one quarter and one half; new data. -/
example : coverTransform (coverFit ⟨false, 3, (1 / 4 : ℚ)⟩ ⟨none⟩ [0, 10, 5]).1 [2, 7 / 2, 9 / 2, 8] =
      .ok [[true, true, false, false], [false, true, true, false], [false, false, false, true]] ∧
    coverTransform (coverFit ⟨false, 3, (1 / 2 : ℚ)⟩ ⟨none⟩ [0, 10, 5]).1 [2, 7 / 2, 9 / 2, 8] =
      .ok [[true, true, true, false], [false, true, true, false], [false, false, false, true]] := by
  constructor <;> decide +kernel

/-- Non-vacuity of `C144_overlap_balanced`. -/
example : (coverFitTransform ⟨true, 2, (1 / 10 : ℚ)⟩ ⟨none⟩ [3, 1, 3, 2, 8]).2 = .ok [[false, true, false, true, false], [true, false, true, false, true]] ∧
    (coverFitTransform ⟨true, 2, (1 / 2 : ℚ)⟩ ⟨none⟩ [3, 1, 3, 2, 8]).2 = .ok [[true, true, true, true, false], [true, false, true, true, true]] := by
  constructor <;> decide +kernel

/-- Cutting a chain-shaped tree on four leaves: the last leaves are merged first. -/
def chainCut : Int → Dendrogram ℚ → PyM (List Nat) := fun n _ => .ok ((List.range 4).map fun i => min i (n.toNat - 1))

/-- Non-vacuity of `C144_coarser`: chain cuts are nested, -/
theorem chainCut_nested (tree : Dendrogram ℚ) : NestedCuts chainCut tree := by
  intro n m a b hnm ha hb i j x y hi hj hy
  cases ha
  cases hb
  simp only [List.getElem?_map, Option.map_eq_some_iff, List.getElem?_eq_some_iff, List.length_range, List.getElem_range] at hi hj hy ⊢
  obtain ⟨i', ⟨hi1, rfl⟩, hi2⟩ := hi
  obtain ⟨j', ⟨hj1, rfl⟩, hj2⟩ := hj
  obtain ⟨k', ⟨hk1, rfl⟩, hk2⟩ := hy
  exact ⟨_, ⟨hj1, rfl⟩, by omega⟩

/-- they do not look at the distances, -/
theorem chainCut_tree : CutsByTree chainCut := fun _ _ _ _ _ => rfl

/-- and raising `relative_gap_size` from one fifth to one half, or lowering `max_fraction` to one half, merges clusters; distances in units ten times smaller change nothing. -/
example : firstSimpleGapFit (fun (_ : List Nat) => .ok ⟨[(2, 3), (1, 4), (0, 5)], 4, [1, 3, 10]⟩) chainCut (some (1 / 5)) (some 1) [0, 10, 13, 14] = .ok ⟨3, [0, 1, 2, 2]⟩ ∧
    firstSimpleGapFit (fun (_ : List Nat) => .ok ⟨[(2, 3), (1, 4), (0, 5)], 4, [1, 3, 10]⟩) chainCut (some (1 / 2)) (some 1) [0, 10, 13, 14] = .ok ⟨2, [0, 1, 1, 1]⟩ ∧
    firstSimpleGapFit (fun (_ : List Nat) => .ok ⟨[(2, 3), (1, 4), (0, 5)], 4, [1, 3, 10]⟩) chainCut (some (1 / 5)) (some (1 / 2)) [0, 10, 13, 14] = .ok ⟨2, [0, 1, 1, 1]⟩ ∧
    firstSimpleGapFit (fun (_ : List Nat) => .ok ⟨[(2, 3), (1, 4), (0, 5)], 4, [10, 30, 100]⟩) chainCut (some (1 / 5)) (some 1) [0, 100, 130, 140] = .ok ⟨3, [0, 1, 2, 2]⟩ := by
  refine ⟨?_, ?_, ?_, ?_⟩ <;> decide +kernel

/-- **C144, without room for one cluster: false.** Three samples with merge distances `1, 10` and `max_fraction = 1/4`: raising `relative_gap_size` from `1/10` to `1` raises the number of clusters from 0 to 1. -/
theorem C144_refuted_small_fraction : numClustersSimple (K := ℚ) [1, 10] (1 / 10 * 10) (some (1 / 4)) = 0 ∧ numClustersSimple (K := ℚ) [1, 10] (1 * 10) (some (1 / 4)) = 1 := by
  constructor <;> decide +kernel

/-- The clusterer of the witnesses below: labels count up to the number of clusters. -/
def histFit (ds : List ℚ) (thr nStart : Int) : PyM (Option Clusters) :=
  firstHistogramGapFit 10 (fun (_ : List Nat) => .ok ⟨[], ds.length + 1, ds⟩) (fun n _ => .ok (List.range n.toNat)) thr (some 1) nStart (List.range (ds.length + 1))

/-- **C144, `freq_threshold`: false in both directions.** Raising it from 2 to 3 gives more clusters for the merge distances `0, 1, 3` and fewer for `0, 0, 0, 1, 2`. -/
theorem C144_refuted_freq_threshold :
    histFit [0, 1, 3] 2 1 = .ok (some ⟨2, [0, 1]⟩) ∧ histFit [0, 1, 3] 3 1 = .ok (some ⟨3, [0, 1, 2]⟩) ∧
      histFit [0, 0, 0, 1, 2] 2 1 = .ok (some ⟨3, [0, 1, 2]⟩) ∧ histFit [0, 0, 0, 1, 2] 3 1 = .ok (some ⟨2, [0, 1]⟩) := by
  refine ⟨?_, ?_, ?_, ?_⟩ <;> decide +kernel

/-- **C144, `n_bins_start`: false in both directions.** -/
theorem C144_refuted_bins_start :
    histFit [0, 1, 3] 0 2 = .ok (some ⟨2, [0, 1]⟩) ∧ histFit [0, 1, 3] 0 6 = .ok (some ⟨3, [0, 1, 2]⟩) ∧
      histFit [0, 2, 5, 9] 0 2 = .ok (some ⟨3, [0, 1, 2]⟩) ∧ histFit [0, 2, 5, 9] 0 5 = .ok (some ⟨2, [0, 1]⟩) := by
  refine ⟨?_, ?_, ?_, ?_⟩ <;> decide +kernel

/-- Non-vacuity of `C144_units`: merge distances in units a hundred times smaller, and equal distances, for which the range is widened by an absolute amount. -/
example : histFit [0, 2 / 100, 5 / 100, 9 / 100] 0 5 = histFit [0, 2, 5, 9] 0 5 ∧ histFit [3, 3, 3] 0 5 = .ok (some ⟨4, [0, 1, 2, 3]⟩) ∧ histFit [300, 300, 300] 0 5 = histFit [3, 3, 3] 0 5 := by
  refine ⟨?_, ?_, ?_⟩ <;> decide +kernel

/-- **C144, more intervals: false.** Raising `n_intervals` from 2 to 3 returns a set (the middle one) which is contained in no set returned before. -/
theorem C144_refuted_more_intervals :
    (coverFitTransform ⟨false, 2, (1 / 10 : ℚ)⟩ ⟨none⟩ [0, 4, 6, 10]).2 = .ok [[true, true, false, false], [false, false, true, true]] ∧
      (coverFitTransform ⟨false, 3, (1 / 10 : ℚ)⟩ ⟨none⟩ [0, 4, 6, 10]).2 = .ok [[true, false, false, false], [false, true, true, false], [false, false, false, true]] := by
  constructor <;> decide +kernel

end Gtda.Props
