import Verif.Lemmas.Matching

set_option autoImplicit false
set_option linter.unusedSectionVars false

/-!
# Bottleneck and Wasserstein distances and amplitudes (C98, C99)

The engines (Hera) are not in the repository; they are assumed to compute the distance of
`Verif/Spec/Matching.lean`, exactly or up to a relative error, for diagrams without diagonal points.
-/

namespace Gtda.Props
open Gtda.Py Gtda.Parallel Gtda.Diagrams

variable {Q : Type} [DecidableEq Q]

/-- The engine computes the distance of two diagrams without diagonal points up to the relative error
`ε` (`ε = 0` for an exact engine). -/
def WithinError (ε : ℝ) (p : ENNReal) (engine : List (Pt ℝ Q) → List (Pt ℝ Q) → ℝ) : Prop :=
  ∀ D E, (∀ x ∈ D, x.b ≠ x.d) → (∀ x ∈ E, x.b ≠ x.d) →
    |engine D E - matchingDistance p D E| ≤ ε * matchingDistance p D E

theorem offDiag_ne (D : List (Pt ℝ Q)) : ∀ x ∈ offDiag D, x.b ≠ x.d := by
  intro x hx
  unfold offDiag at hx
  simpa using (List.mem_filter.mp hx).2

theorem matchingDistance_offDiag (p : ENNReal) (hp : 1 ≤ p) (D E : List (Pt ℝ Q)) :
    matchingDistance p (offDiag D) (offDiag E) = matchingDistance p D E :=
  matchingDistance_congr p hp (by rw [offDiag_offDiag]) (by rw [offDiag_offDiag])

theorem features_iff_same (D D' : List (Pt ℝ Q)) (q : Q) :
    (features (pointsIn D q)).Perm (features (pointsIn D' q)) ↔
      SameFeatures (pointsIn D q) (pointsIn D' q) := by
  constructor
  · intro h
    have back : ∀ D : List (Pt ℝ Q), (features (pointsIn D q)).map (fun c => (⟨c.1, c.2, q⟩ : Pt ℝ Q)) =
        offDiag (pointsIn D q) := by
      intro D
      unfold features
      rw [List.map_map]
      conv_rhs => rw [← List.map_id (offDiag (pointsIn D q))]
      apply List.map_congr_left
      intro x hx
      have hq : x.q = q := by
        have := (List.mem_filter.mp hx).1
        exact ((mem_pointsIn D q x).mp this).2
      subst hq
      rfl
    have := h.map (fun c => (⟨c.1, c.2, q⟩ : Pt ℝ Q))
    rw [back, back] at this
    exact this
  · intro h
    exact h.map _

/-- C98: with an engine that computes the bottleneck (`p = ∞`) or `p`-Wasserstein distance exactly,
entry `[i, j, k]` of the output of `PairwiseDistance` is this distance between the points of the two
diagrams in the `k`-th homology dimension, diagonal points included.  It is a pseudometric, and it is
zero exactly if the diagrams have the same points off the diagonal, with multiplicity. -/
theorem C98_exact (p : ENNReal) (hp : 1 ≤ p) (engine : List (Pt ℝ Q) → List (Pt ℝ Q) → ℝ)
    (hengine : WithinError 0 p engine) (dims : List Q) (hd : dims ≠ []) :
    GivesDistances (fun nJobs X₁ X₂ => matchingPairwise engine dims nJobs X₁ X₂) dims Set.univ
      (fun q D D' => matchingDistance p (pointsIn D q) (pointsIn D' q)) ∧
    ∀ q ∈ dims,
      PseudometricOn Set.univ (fun D D' : List (Pt ℝ Q) => matchingDistance p (pointsIn D q) (pointsIn D' q)) ∧
      ∀ D D' : List (Pt ℝ Q), matchingDistance p (pointsIn D q) (pointsIn D' q) = 0 ↔
        SameFeatures (pointsIn D q) (pointsIn D' q) := by
  have hpos : 0 < p := lt_of_lt_of_le one_pos hp
  have he : (fun (q : Q) (D D' : List (Pt ℝ Q)) => matchingDistance p (pointsIn D q) (pointsIn D' q)) =
      fun q D D' => engine (offDiag (pointsIn D q)) (offDiag (pointsIn D' q)) := by
    funext q D D'
    have := hengine (offDiag (pointsIn D q)) (offDiag (pointsIn D' q)) (offDiag_ne _) (offDiag_ne _)
    rw [zero_mul, matchingDistance_offDiag p hp] at this
    have := abs_eq_zero.mp (le_antisymm this (abs_nonneg _))
    linarith
  refine ⟨?_, fun q _ => ⟨⟨?_, ?_, ?_, ?_⟩, ?_⟩⟩
  · rw [he]
    exact C33_matching engine dims hd
  · intro D _ D' _
    exact matchingDistance_nonneg p hpos _ _
  · intro D _
    exact (matchingDistance_zero p hpos _ _).mpr (List.Perm.refl _)
  · intro D _ D' _
    exact matchingDistance_symm p hpos _ _
  · intro D _ D' _ D'' _
    exact matchingDistance_triangle p hp _ _ _
  · intro D D'
    rw [matchingDistance_zero p hpos, features_iff_same]

/-- C98: with an engine of relative error `ε < 1` (parameter `delta`) the entries have this relative
error; they are zero exactly if the points off the diagonal agree, they are symmetric up to the factor
`(1 + ε) / (1 - ε)`, and satisfy the triangle inequality up to this factor. -/
theorem C98_approximate (ε : ℝ) (h0 : 0 ≤ ε) (h1 : ε < 1) (p : ENNReal) (hp : 1 ≤ p)
    (engine : List (Pt ℝ Q) → List (Pt ℝ Q) → ℝ) (hengine : WithinError ε p engine) (dims : List Q)
    (hd : dims ≠ []) :
    ∃ δ : Q → List (Pt ℝ Q) → List (Pt ℝ Q) → ℝ,
      GivesDistances (fun nJobs X₁ X₂ => matchingPairwise engine dims nJobs X₁ X₂) dims Set.univ δ ∧
      ∀ q ∈ dims, ∀ D E F : List (Pt ℝ Q),
        |δ q D E - matchingDistance p (pointsIn D q) (pointsIn E q)| ≤
          ε * matchingDistance p (pointsIn D q) (pointsIn E q) ∧
        0 ≤ δ q D E ∧ (δ q D E = 0 ↔ SameFeatures (pointsIn D q) (pointsIn E q)) ∧
        δ q D E ≤ (1 + ε) / (1 - ε) * δ q E D ∧
        δ q D F ≤ (1 + ε) / (1 - ε) * (δ q D E + δ q E F) := by
  have hpos : 0 < p := lt_of_lt_of_le one_pos hp
  refine ⟨_, C33_matching engine dims hd, fun q _ => ?_⟩
  have key : ∀ D E : List (Pt ℝ Q),
      |engine (offDiag (pointsIn D q)) (offDiag (pointsIn E q)) -
        matchingDistance p (pointsIn D q) (pointsIn E q)| ≤
      ε * matchingDistance p (pointsIn D q) (pointsIn E q) := by
    intro D E
    have := hengine (offDiag (pointsIn D q)) (offDiag (pointsIn E q)) (offDiag_ne _) (offDiag_ne _)
    rwa [matchingDistance_offDiag p hp] at this
  have nn : ∀ D E : List (Pt ℝ Q), 0 ≤ matchingDistance p (pointsIn D q) (pointsIn E q) :=
    fun D E => matchingDistance_nonneg p hpos _ _
  have lo : ∀ D E : List (Pt ℝ Q), (1 - ε) * matchingDistance p (pointsIn D q) (pointsIn E q) ≤
      engine (offDiag (pointsIn D q)) (offDiag (pointsIn E q)) := by
    intro D E
    have := (abs_le.mp (key D E)).1
    linarith
  have hi : ∀ D E : List (Pt ℝ Q), engine (offDiag (pointsIn D q)) (offDiag (pointsIn E q)) ≤
      (1 + ε) * matchingDistance p (pointsIn D q) (pointsIn E q) := by
    intro D E
    have := (abs_le.mp (key D E)).2
    linarith
  have hε : 0 < 1 - ε := by linarith
  have up : ∀ x y : ℝ, (1 - ε) * x ≤ y → (1 + ε) * x ≤ (1 + ε) / (1 - ε) * y := by
    intro x y h
    rw [div_mul_eq_mul_div, le_div_iff₀ hε]
    have := mul_le_mul_of_nonneg_left h (by linarith : 0 ≤ 1 + ε)
    linarith
  intro D E F
  refine ⟨key D E, le_trans (mul_nonneg hε.le (nn D E)) (lo D E), ?_, ?_, ?_⟩
  · rw [← features_iff_same, ← matchingDistance_zero p hpos]
    constructor
    · intro h
      have := lo D E
      rw [h] at this
      exact le_antisymm (by nlinarith [nn D E]) (nn D E)
    · intro h
      have := key D E
      rw [h] at this
      simpa using this
  · refine le_trans (hi D E) ?_
    rw [matchingDistance_symm p hpos]
    exact up _ _ (lo E D)
  · refine le_trans (hi D F) (le_trans (mul_le_mul_of_nonneg_left
      (matchingDistance_triangle p hp _ (pointsIn E q) _) (by linarith)) ?_)
    apply up
    have := lo D E
    have := lo E F
    linarith

/-- The points of the second diagram are those of the first, each moved by at most `ε` in birth and in
death. -/
def Moved (ε : ℝ) (D D' : List (Pt ℝ Q)) : Prop :=
  List.Forall₂ (fun x y => |x.b - y.b| ≤ ε ∧ |x.d - y.d| ≤ ε ∧ x.q = y.q) D D'

theorem matching_moved (ε : ℝ) (D D' : List (Pt ℝ Q)) (h : Moved ε D D') (q : Q) :
    ∃ M, IsMatching (pointsIn D q) (pointsIn D' q) M ∧ ∀ m ∈ M, gap m.1 m.2 ≤ ε := by
  unfold Moved at h
  induction h with
  | nil => exact ⟨[], ⟨List.Perm.refl _, List.Perm.refl _⟩, by simp⟩
  | @cons x y D D' hxy _ ih =>
      obtain ⟨M, hM, hle⟩ := ih
      obtain ⟨h1, h2, h3⟩ := hxy
      unfold pointsIn at hM ⊢
      by_cases hq : x.q = q
      · have hq' : y.q = q := h3 ▸ hq
        refine ⟨(some x, some y) :: M, ?_, ?_⟩
        · rw [List.filter_cons_of_pos (by simpa using hq), List.filter_cons_of_pos (by simpa using hq')]
          exact ⟨hM.left.cons x, hM.right.cons y⟩
        · intro m hm
          rcases List.mem_cons.mp hm with rfl | hm
          · exact max_le h1 h2
          · exact hle m hm
      · have hq' : ¬ y.q = q := h3 ▸ hq
        rw [List.filter_cons_of_neg (by simpa using hq), List.filter_cons_of_neg (by simpa using hq')]
        exact ⟨M, hM, hle⟩

theorem close_of_near (ε : ℝ) (x x' y y' : List (Pt ℝ Q)) (n1 : matchingDistance ⊤ x x' ≤ ε)
    (n2 : matchingDistance ⊤ y y' ≤ ε) :
    |matchingDistance ⊤ x y - matchingDistance ⊤ x' y'| ≤ 2 * ε := by
  have hs := fun D E : List (Pt ℝ Q) => matchingDistance_symm ⊤ ENNReal.zero_lt_top D E
  have ht := fun D E F : List (Pt ℝ Q) => matchingDistance_triangle ⊤ le_top D E F
  rw [abs_le]
  constructor
  · have t1 := ht x' x y'
    have t2 := ht x y y'
    rw [hs x' x] at t1
    linarith
  · have t1 := ht x x' y
    have t2 := ht x' y' y
    rw [hs y' y] at t2
    linarith

/-- C98, stability: if every point of the diagrams is moved by at most `ε` (in birth and in death),
then no bottleneck distance in the output changes by more than `2 ε`. -/
theorem C98_stable (engine : List (Pt ℝ Q) → List (Pt ℝ Q) → ℝ) (hengine : WithinError 0 ⊤ engine)
    (dims : List Q) (hd : dims ≠ []) (ε : ℝ) (hε : 0 ≤ ε) (nJobs nJobs' : Nat) (hn : 1 ≤ nJobs)
    (hn' : 1 ≤ nJobs') (X Y X' Y' : List (List (Pt ℝ Q))) (hX : X ≠ []) (hY : Y ≠ [])
    (eX : ∀ q ∈ dims, EqualCounts X q) (eY : ∀ q ∈ dims, EqualCounts Y q)
    (eX' : ∀ q ∈ dims, EqualCounts X' q) (eY' : ∀ q ∈ dims, EqualCounts Y' q)
    (mX : List.Forall₂ (Moved ε) X X') (mY : List.Forall₂ (Moved ε) Y Y') :
    ∃ A A', matchingPairwise engine dims nJobs X Y = .ok A ∧
      matchingPairwise engine dims nJobs' X' Y' = .ok A' ∧
      ∀ i j k a, i < X.length → j < Y.length → k < dims.length → entry3 A i j k = some a →
        ∃ a', entry3 A' i j k = some a' ∧ |a - a'| ≤ 2 * ε := by
  have hG := (C98_exact ⊤ le_top engine hengine dims hd).1
  have hX' : X' ≠ [] := by
    rintro rfl
    cases mX
    exact hX rfl
  have hY' : Y' ≠ [] := by
    rintro rfl
    cases mY
    exact hY rfl
  obtain ⟨A, a1, _, _, a2⟩ := hG nJobs X Y hn hX hY eX eY (by simp) (by simp)
  obtain ⟨A', b1, _, _, b2⟩ := hG nJobs' X' Y' hn' hX' hY' eX' eY' (by simp) (by simp)
  refine ⟨A, A', a1, b1, ?_⟩
  intro i j k a hi hj hk ha
  have hi' : i < X'.length := by rw [← mX.length_eq]; exact hi
  have hj' : j < Y'.length := by rw [← mY.length_eq]; exact hj
  have e1 := a2 i j k _ _ _ (List.getElem?_eq_getElem hi) (List.getElem?_eq_getElem hj)
    (List.getElem?_eq_getElem hk)
  have e2 := b2 i j k _ _ _ (List.getElem?_eq_getElem hi') (List.getElem?_eq_getElem hj')
    (List.getElem?_eq_getElem hk)
  rw [e1] at ha
  injection ha with ha
  refine ⟨_, e2, ?_⟩
  rw [← ha]
  generalize dims[k] = q
  have near : ∀ D D' : List (Pt ℝ Q), Moved ε D D' →
      matchingDistance ⊤ (pointsIn D q) (pointsIn D' q) ≤ ε := by
    intro D D' h
    obtain ⟨M, hM, hle⟩ := matching_moved ε D D' h q
    refine le_trans (matchingDistance_le ⊤ ENNReal.zero_lt_top hM) ?_
    unfold totalPrice
    rw [← pNorm_eq ⊤ ENNReal.zero_lt_top]
    unfold pNorm
    rw [if_pos rfl, foldl_max_iSup]
    refine ⟨hε, ?_⟩
    intro x hx
    rw [List.map_map] at hx
    obtain ⟨m, hm, rfl⟩ := List.mem_map.mp hx
    simp only [Function.comp]
    rw [abs_of_nonneg (gap_nonneg _ _)]
    exact hle m hm
  have n1 := near _ _ (mX.get hi hi')
  have n2 := near _ _ (mY.get hj hj')
  simp only [List.get_eq_getElem] at n1 n2
  exact close_of_near ε _ _ _ _ n1 n2

/-! ### Amplitudes -/

/-- C99: the bottleneck amplitude is the bottleneck distance to the diagram without points. -/
theorem C99_bottleneck (dims : List Q) (hd : dims ≠ []) :
    GivesAmplitudes (fun nJobs X => parallelAmplitude (fun _ => bottleneckAmplitudes) dims nJobs X) dims
      {D : List (Pt ℝ Q) | ∀ q ∈ dims, ∃ p ∈ D, p.q = q}
      (fun q D => matchingDistance ⊤ (pointsIn D q) []) := by
  refine givesAmplitudes_of (fun _ => bottleneckAmplitudes) (fun _ D => matchingDistance ⊤ D []) dims hd
    _ ?_
  intro q hq Y _ hS _
  unfold bottleneckAmplitudes
  rw [mapM_ok (g := fun D => matchingDistance ⊤ D [])]
  · rw [List.map_map]
    rfl
  · intro D hD
    rw [List.mem_map] at hD
    obtain ⟨D, hD, rfl⟩ := hD
    obtain ⟨x, hx, hxq⟩ := hS D hD q hq
    have hne := List.ne_nil_of_mem ((mem_pointsIn D q x).mpr ⟨hx, hxq⟩)
    generalize pointsIn D q = D at hne
    obtain ⟨m, hm, hg⟩ := npMax_spec (D.map fun p => |(p.d - p.b) / 2|) (by simpa using hne)
    rw [hm, matchingDistance_nil ⊤ ENNReal.zero_lt_top]
    congr 1
    rw [← pNorm_eq ⊤ ENNReal.zero_lt_top]
    unfold pNorm
    rw [if_pos rfl]
    have e : ((D.map fun x => |x.d - x.b| / 2).map fun x => |x|) = D.map fun p => |(p.d - p.b) / 2| := by
      rw [List.map_map]
      apply List.map_congr_left
      intro x _
      simp [abs_div]
    rw [e]
    have hc : ∀ c, (D.map fun p => |(p.d - p.b) / 2|).foldl max 0 ≤ c ↔ m ≤ c := by
      intro c
      rw [foldl_max_iSup]
      constructor
      · rintro ⟨_, h⟩
        exact h m hg.1
      · intro h
        refine ⟨?_, fun x hx => le_trans (hg.2 hx) h⟩
        obtain ⟨x, _, rfl⟩ := List.mem_map.mp hg.1
        exact le_trans (abs_nonneg _) h
    exact le_antisymm ((hc _).mp le_rfl) ((hc m).mpr le_rfl)

/-- C99: the Wasserstein amplitude is the Wasserstein distance to the diagram without points. -/
theorem C99_wasserstein (p : ENNReal) (hp : 0 < p) (dims : List Q) (hd : dims ≠ []) :
    GivesAmplitudes (fun nJobs X => parallelAmplitude (fun _ => wassersteinAmplitudes p) dims nJobs X) dims
      Set.univ (fun (q : Q) (D : List (Pt ℝ Q)) => matchingDistance p (pointsIn D q) []) := by
  refine givesAmplitudes_of (fun _ => wassersteinAmplitudes p) (fun _ D => matchingDistance p D []) dims hd
    _ ?_
  intro q hq Y _ _ _
  unfold wassersteinAmplitudes
  rw [List.map_map]
  congr 1
  apply List.map_congr_left
  intro D _
  simp only [Function.comp]
  rw [matchingDistance_nil p hp, ← pNorm_eq p hp]
  unfold pNorm
  simp [Function.comp_def, abs_div]

/-- C99: amplitudes of two diagrams differ at most by the distance between them: for the same
collection, `|Amplitude[i, k] - Amplitude[j, k]| ≤ PairwiseDistance[i, j, k]`, for Wasserstein
amplitudes and distances with the same `p`. -/
theorem C99_lipschitz (p : ENNReal) (hp : 1 ≤ p) (engine : List (Pt ℝ Q) → List (Pt ℝ Q) → ℝ)
    (hengine : WithinError 0 p engine) (dims : List Q) (hd : dims ≠ []) (nJobs nJobs' : Nat)
    (hn : 1 ≤ nJobs) (hn' : 1 ≤ nJobs') (X : List (List (Pt ℝ Q))) (hX : X ≠ [])
    (eX : ∀ q ∈ dims, EqualCounts X q) :
    ∃ A B, matchingPairwise engine dims nJobs X X = .ok A ∧
      parallelAmplitude (fun _ => wassersteinAmplitudes p) dims nJobs' X = .ok B ∧
      ∀ i j k, i < X.length → j < X.length → k < dims.length →
        ∃ d a b, entry3 A i j k = some d ∧ entry2 B i k = some a ∧ entry2 B j k = some b ∧
          |a - b| ≤ d := by
  obtain ⟨A, a1, _, _, a2⟩ := (C98_exact p hp engine hengine dims hd).1 nJobs X X hn hX hX eX eX
    (by simp) (by simp)
  obtain ⟨B, b1, _, _, b2⟩ := C99_wasserstein p (lt_of_lt_of_le one_pos hp) dims hd nJobs' X hn' hX eX
    (by simp)
  refine ⟨A, B, a1, b1, ?_⟩
  intro i j k hi hj hk
  refine ⟨_, _, _, a2 i j k _ _ _ (List.getElem?_eq_getElem hi) (List.getElem?_eq_getElem hj)
    (List.getElem?_eq_getElem hk), b2 i k _ _ (List.getElem?_eq_getElem hi)
    (List.getElem?_eq_getElem hk), b2 j k _ _ (List.getElem?_eq_getElem hj)
    (List.getElem?_eq_getElem hk), ?_⟩
  have t1 := matchingDistance_triangle p hp (pointsIn X[i] dims[k]) (pointsIn X[j] dims[k]) []
  have t2 := matchingDistance_triangle p hp (pointsIn X[j] dims[k]) (pointsIn X[i] dims[k]) []
  rw [matchingDistance_symm p (lt_of_lt_of_le one_pos hp) (pointsIn X[j] dims[k])
    (pointsIn X[i] dims[k])] at t2
  rw [abs_le]
  constructor <;> linarith

/-! ### Landscapes against bottleneck distances -/

theorem tent_le_half (x : Pt ℝ Q) (s : ℝ) : tent x.b x.d s ≤ |x.d - x.b| / 2 := by
  unfold tent
  apply max_le (by positivity)
  have h1 := min_le_left (s - x.b) (x.d - s)
  have h2 := min_le_right (s - x.b) (x.d - s)
  have h3 := le_abs_self (x.d - x.b)
  linarith

theorem tent_near (x y : Pt ℝ Q) (s : ℝ) : tent x.b x.d s ≤ tent y.b y.d s + gap (some x) (some y) := by
  have h0 := gap_nonneg (some x) (some y)
  have h1 : |x.b - y.b| ≤ gap (some x) (some y) := le_max_left _ _
  have h2 : |x.d - y.d| ≤ gap (some x) (some y) := le_max_right _ _
  have h3 := neg_abs_le (x.b - y.b)
  have h4 := le_abs_self (x.d - y.d)
  unfold tent
  generalize gap (some x) (some y) = g at *
  apply max_le
  · have := le_max_left 0 (min (s - y.b) (y.d - s))
    linarith
  · have : min (s - x.b) (x.d - s) ≤ min (s - y.b) (y.d - s) + g := by
      rw [← min_add_add_right]
      exact min_le_min (by linarith) (by linarith)
    have := le_max_right 0 (min (s - y.b) (y.d - s))
    linarith

/-- Of two diagrams matched with prices at most `ε`, the landscape of the one is at most `ε` above that
of the other. -/
theorem nth_near (ε : ℝ) (D E : List (Pt ℝ Q)) (M : List (Option (Pt ℝ Q) × Option (Pt ℝ Q)))
    (hM : IsMatching D E M) (hε : ∀ m ∈ M, gap m.1 m.2 ≤ ε) (h0 : 0 ≤ ε) (s : ℝ) (k : Nat) (v w : ℝ)
    (v1 : k < D.length → IsNthLargest (D.map fun x => tent x.b x.d s) k v) (v2 : D.length ≤ k → v = 0)
    (w1 : k < E.length → IsNthLargest (E.map fun x => tent x.b x.d s) k w) (w2 : E.length ≤ k → w = 0) :
    v ≤ w + ε := by
  by_contra hlt
  rw [not_le] at hlt
  have hw : 0 ≤ w := by
    by_cases hk : k < E.length
    · obtain ⟨x, _, rfl⟩ := List.mem_map.mp (w1 hk).1
      exact le_max_left _ _
    · rw [w2 (by omega)]
  have hv : ¬ D.length ≤ k := by
    intro h
    rw [v2 h] at hlt
    linarith
  have c1 := (v1 (by omega)).2.2
  have c2 : (E.map fun x => tent x.b x.d s).countP (fun x => decide (w < x)) ≤ k := by
    by_cases hk : k < E.length
    · exact (w1 hk).2.1
    · refine le_trans List.countP_le_length ?_
      rw [List.length_map]
      omega
  have c3 : (D.map fun x => tent x.b x.d s).countP (fun x => decide (v ≤ x)) ≤
      (E.map fun x => tent x.b x.d s).countP (fun x => decide (w < x)) := by
    rw [(hM.left.symm.map _).countP_eq, (hM.right.symm.map _).countP_eq, List.countP_map, List.countP_map,
      List.countP_filterMap, List.countP_filterMap]
    apply List.countP_mono_left
    intro m hm hx
    have hg := hε m hm
    obtain ⟨x, y⟩ := m
    cases x with
    | none => simp at hx
    | some x =>
        simp only [Option.map_some, Option.getD_some, Function.comp, decide_eq_true_eq] at hx
        cases y with
        | none =>
            exfalso
            have := tent_le_half x s
            simp only [gap] at hg
            linarith
        | some y =>
            simp only [Option.map_some, Option.getD_some, Function.comp, decide_eq_true_eq]
            have := tent_near x y s
            simp only at hg
            linarith
  omega

theorem price_le_bottleneck (D E : List (Pt ℝ Q)) :
    ∃ M, IsMatching D E M ∧ ∀ m ∈ M, gap m.1 m.2 ≤ matchingDistance ⊤ D E := by
  obtain ⟨M, hM, e⟩ := matchingDistance_attained ⊤ ENNReal.zero_lt_top D E
  refine ⟨M, hM, fun m hm => ?_⟩
  rw [e]
  have := mem_le_lpNorm ⊤ ENNReal.zero_lt_top (M.map fun m => gap m.1 m.2) _
    (List.mem_map.mpr ⟨m, hm, rfl⟩)
  rwa [abs_of_nonneg (gap_nonneg _ _)] at this

theorem nth_near_bottleneck (D E : List (Pt ℝ Q)) (s : ℝ) (k : Nat) (v w : ℝ)
    (v1 : k < D.length → IsNthLargest (D.map fun x => tent x.b x.d s) k v) (v2 : D.length ≤ k → v = 0)
    (w1 : k < E.length → IsNthLargest (E.map fun x => tent x.b x.d s) k w) (w2 : E.length ≤ k → w = 0) :
    |v - w| ≤ matchingDistance ⊤ D E := by
  obtain ⟨M, hM, h⟩ := price_le_bottleneck D E
  obtain ⟨N, hN, h'⟩ := price_le_bottleneck E D
  rw [matchingDistance_symm ⊤ ENNReal.zero_lt_top] at h'
  have h0 := matchingDistance_nonneg ⊤ ENNReal.zero_lt_top D E
  have a := nth_near _ D E M hM h h0 s k v w v1 v2 w1 w2
  have b := nth_near _ E D N hN h' h0 s k w v w1 w2 v1 v2
  rw [abs_le]
  constructor <;> linarith

/-- C100: at every layer and every sampled value the landscapes of two diagrams differ at most by the
bottleneck distance of the diagrams in that homology dimension. -/
theorem C100_landscape (dims : List Q) (sampling : Q → List ℝ) (nLayers nJobs : Nat)
    (X : List (List (Pt ℝ Q))) (hn : 1 ≤ nJobs) (hd : dims ≠ []) (hX : X ≠ [])
    (hE : ∀ q ∈ dims, EqualCounts X q) :
    ∃ R, landscapeTransform dims sampling nLayers nJobs X = .ok R ∧
      ∀ (i i' j k t : Nat) D D' q s, X[i]? = some D → X[i']? = some D' → dims[j]? = some q →
        k < nLayers → (sampling q)[t]? = some s →
        ∃ v v', entry3 R i (j * nLayers + k) t = some v ∧ entry3 R i' (j * nLayers + k) t = some v' ∧
          |v - v'| ≤ matchingDistance ⊤ (pointsIn D q) (pointsIn D' q) := by
  obtain ⟨R, hR, _, _, h⟩ := C28_landscape dims sampling nLayers nJobs X hn hd hX hE
  refine ⟨R, hR, ?_⟩
  intro i i' j k t D D' q s hD hD' hq hk hs
  obtain ⟨v, e, v1, v2⟩ := h i j k t D q s hD hq hk hs
  obtain ⟨w, e', w1, w2⟩ := h i' j k t D' q s hD' hq hk hs
  exact ⟨v, w, e, e', nth_near_bottleneck _ _ s k v w v1 v2 w1 w2⟩

/-- C100: hence landscape distances with `p = ∞` are at most the bottleneck distances: for the same
collections, each entry of `PairwiseDistance(metric="landscape", metric_params={"p": np.inf})` is at
most the same entry of `PairwiseDistance(metric="bottleneck")`, for any number of layers and any
samplings. -/
theorem C100_distances (engine : List (Pt ℝ Q) → List (Pt ℝ Q) → ℝ) (hengine : WithinError 0 ⊤ engine)
    (dims : List Q) (hd : dims ≠ []) (nLayers : Nat) (sampling : Q → List ℝ) (step : Q → ℝ)
    (nJobs nJobs' : Nat) (hn : 1 ≤ nJobs) (hn' : 1 ≤ nJobs') (X Y : List (List (Pt ℝ Q))) (hX : X ≠ [])
    (hY : Y ≠ []) (eX : ∀ q ∈ dims, EqualCounts X q) (eY : ∀ q ∈ dims, EqualCounts Y q) :
    ∃ A B, landscapePairwise ⊤ nLayers sampling step dims nJobs X Y = .ok A ∧
      matchingPairwise engine dims nJobs' X Y = .ok B ∧
      ∀ i j k, i < X.length → j < Y.length → k < dims.length →
        ∃ a b, entry3 A i j k = some a ∧ entry3 B i j k = some b ∧ a ≤ b := by
  obtain ⟨A, a1, _, _, a2⟩ := landscapePairwise_gives ⊤ ENNReal.zero_lt_top nLayers sampling step dims hd
    nJobs X Y hn hX hY eX eY (by simp) (by simp)
  obtain ⟨B, b1, _, _, b2⟩ := (C98_exact ⊤ le_top engine hengine dims hd).1 nJobs' X Y hn' hX hY eX eY
    (by simp) (by simp)
  refine ⟨A, B, a1, b1, ?_⟩
  intro i j k hi hj hk
  refine ⟨_, _, a2 i j k _ _ _ (List.getElem?_eq_getElem hi) (List.getElem?_eq_getElem hj)
    (List.getElem?_eq_getElem hk), b2 i j k _ _ _ (List.getElem?_eq_getElem hi)
    (List.getElem?_eq_getElem hj) (List.getElem?_eq_getElem hk), ?_⟩
  beta_reduce
  generalize pointsIn X[i] dims[k] = D
  generalize pointsIn Y[j] dims[k] = E
  generalize dims[k] = q
  unfold minkowski stepFactor
  rw [if_pos rfl, Real.rpow_zero, mul_one]
  unfold pNorm
  rw [if_pos rfl, foldl_max_iSup]
  refine ⟨matchingDistance_nonneg ⊤ ENNReal.zero_lt_top _ _, ?_⟩
  intro x hx
  rw [List.mem_map] at hx
  obtain ⟨y, hy, rfl⟩ := hx
  have key : ∀ (L : List ℝ) (n : List Nat), ∀ y ∈ List.zipWith (· - ·)
      (n.map fun k => L.map fun s => layerAt D k s).flatten
      (n.map fun k => L.map fun s => layerAt E k s).flatten,
      ∃ k s, y = layerAt D k s - layerAt E k s := by
    intro L n
    induction n with
    | nil => simp
    | cons k n ih =>
        intro y hy
        rw [List.map_cons, List.map_cons, List.flatten_cons, List.flatten_cons,
          List.zipWith_append (by simp), List.mem_append] at hy
        rcases hy with hy | hy
        · rw [List.zipWith_map] at hy
          rw [List.zipWith_self] at hy
          obtain ⟨s, _, rfl⟩ := List.mem_map.mp hy
          exact ⟨k, s, rfl⟩
        · exact ih y hy
  obtain ⟨k', s, rfl⟩ := key _ _ y hy
  have he : ∀ D : List (Pt ℝ Q), (D.map fun x => tent x.b x.d s) = D.map (fiber s) := by
    intro D
    apply List.map_congr_left
    intro x _
    exact (fiber_eq s x).symm
  apply nth_near_bottleneck D E s k'
  · intro h
    rw [he]
    exact layerAt_isNth D k' s h
  · exact layerAt_beyond D k' s
  · intro h
    rw [he]
    exact layerAt_isNth E k' s h
  · exact layerAt_beyond E k' s

/-! ### Concrete cases -/

-- An exact engine exists, so the hypotheses of the theorems can be met.
example (p : ENNReal) : WithinError (Q := Nat) 0 p (matchingDistance p) := by
  intro D E _ _
  simp

-- The bottleneck distance of the diagrams {(0, 4)} and {(1, 6), (2, 3)}: match (0, 4) with (1, 6) at
-- price 2 and leave (2, 3) alone at price 1/2.
example : IsMatching ([⟨0, 4, 0⟩] : List (Pt ℝ Nat)) [⟨1, 6, 0⟩, ⟨2, 3, 0⟩]
    [(some ⟨0, 4, 0⟩, some ⟨1, 6, 0⟩), (none, some ⟨2, 3, 0⟩)] :=
  ⟨List.Perm.refl _, List.Perm.refl _⟩

-- Amplitude of {(0, 4), (2, 3)}: half the largest lifetime.
example : matchingDistance ⊤ ([⟨0, 4, 0⟩, ⟨2, 3, 0⟩] : List (Pt ℝ Nat)) [] = 2 := by
  rw [matchingDistance_nil ⊤ ENNReal.zero_lt_top, ← pNorm_eq ⊤ ENNReal.zero_lt_top]
  unfold pNorm
  norm_num

example : Moved (1 / 2) ([⟨0, 4, 0⟩] : List (Pt ℝ Nat)) [⟨1 / 4, 9 / 2, 0⟩] := by
  refine List.Forall₂.cons ⟨?_, ?_, rfl⟩ List.Forall₂.nil <;> norm_num [abs_le]

end Gtda.Props
