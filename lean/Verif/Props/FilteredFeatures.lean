import Verif.Props.Matching
import Verif.Props.Features
import Verif.Props.Joined

set_option autoImplicit false
set_option linter.unusedSectionVars false

/-!
# C141: what filtering changes
-/

namespace Gtda.Props
open Gtda.Py Gtda.Parallel Gtda.Diagrams

variable {Q : Type} [LinearOrder Q]

/-- What is left of a diagram, in one dimension. -/
theorem filtered_points (X : List (List (Pt ℝ Q))) (fd : List Q) (e : ℝ) (hX : X ≠ []) (hfd : fd.Nodup) (h : ∀ q, EqualCounts X q) :
    ∃ R, filterDiagrams X fd e = .ok R ∧ R.length = X.length ∧ (∀ q, EqualCounts R q) ∧
      ∀ (i : Nat) D D' q, X[i]? = some D → R[i]? = some D' →
        ∃ pads : List (Pt ℝ Q), pointsIn D' q = (if q ∈ fd then longLived e D q else pointsIn D q) ++ pads ∧ ∀ p ∈ pads, p.b = p.d := by
  obtain ⟨R, hR, hl, hp⟩ := C22_filtering X fd e hX hfd (fun q _ => h q)
  refine ⟨R, hR, hl, fun q => C23_equal_counts X R fd e hX hfd (fun q _ => h q) hR q, ?_⟩
  intro i D D' q h1 h2
  obtain ⟨g1, g2⟩ := hp i D D' h1 h2
  by_cases hq : q ∈ fd
  · rw [if_pos hq]
    exact g1 q hq
  · rw [if_neg hq]
    exact ⟨[], by rw [g2 q hq, List.append_nil], by simp⟩

/-- A matching which leaves alone the short-lived points and the padding. -/
theorem filtered_matching (e : ℝ) (D pads : List (Pt ℝ Q)) (q : Q) (he : 0 ≤ e) (hv : ∀ p ∈ D, p.b ≤ p.d) (hpads : ∀ p ∈ pads, p.b = p.d) :
    ∃ M, IsMatching (pointsIn D q) (longLived e D q ++ pads) M ∧ ∀ m ∈ M, gap m.1 m.2 ≤ e / 2 := by
  induction D with
  | nil =>
    refine ⟨pads.map fun p => (none, some p), ⟨?_, ?_⟩, ?_⟩
    · simp [pointsIn]
    · simp [longLived]
    · intro m hm
      obtain ⟨p, hp, rfl⟩ := List.mem_map.mp hm
      simp only [gap, hpads p hp, sub_self, abs_zero]
      linarith
  | cons x D ih =>
    obtain ⟨M, hM, hle⟩ := ih fun p hp => hv p (List.mem_cons_of_mem _ hp)
    have hx := hv x List.mem_cons_self
    unfold pointsIn longLived at *
    by_cases hq : x.q = q
    · by_cases hlong : e < x.d - x.b
      · refine ⟨(some x, some x) :: M, ⟨?_, ?_⟩, ?_⟩
        · rw [List.filter_cons_of_pos (by simpa using hq)]
          exact hM.left.cons x
        · rw [List.filter_cons_of_pos (by simpa using ⟨hq, hlong⟩)]
          exact hM.right.cons x
        · intro m hm
          rcases List.mem_cons.mp hm with rfl | hm
          · simp only [gap, sub_self, abs_zero, max_self]
            linarith
          · exact hle m hm
      · refine ⟨(some x, none) :: M, ⟨?_, ?_⟩, ?_⟩
        · rw [List.filter_cons_of_pos (by simpa using hq)]
          exact hM.left.cons x
        · rw [List.filter_cons_of_neg (by simp [hlong])]
          exact hM.right
        · intro m hm
          rcases List.mem_cons.mp hm with rfl | hm
          · simp only [gap]
            rw [abs_of_nonneg (by linarith)]
            linarith
          · exact hle m hm
    · rw [List.filter_cons_of_neg (by simpa using hq), List.filter_cons_of_neg (by simp [hq])]
      exact ⟨M, hM, hle⟩

theorem bottleneck_le (ε : ℝ) (hε : 0 ≤ ε) (D E : List (Pt ℝ Q)) (h : ∃ M, IsMatching D E M ∧ ∀ m ∈ M, gap m.1 m.2 ≤ ε) : matchingDistance ⊤ D E ≤ ε := by
  obtain ⟨M, hM, hle⟩ := h
  refine le_trans (matchingDistance_le ⊤ ENNReal.zero_lt_top hM) ?_
  unfold totalPrice
  rw [← pNorm_eq ⊤ ENNReal.zero_lt_top]
  unfold pNorm
  rw [if_pos rfl, foldl_max_iSup]
  refine ⟨hε, ?_⟩
  intro x hx
  rw [List.mem_map] at hx
  obtain ⟨y, hy, rfl⟩ := hx
  obtain ⟨m, hm, rfl⟩ := List.mem_map.mp hy
  rw [abs_of_nonneg (gap_nonneg _ _)]
  exact hle m hm

theorem filtered_near (fd : List Q) (e : ℝ) (he : 0 ≤ e) (D D' : List (Pt ℝ Q)) (q : Q) (hv : ∀ p ∈ D, p.b ≤ p.d)
    (h : ∃ pads : List (Pt ℝ Q), pointsIn D' q = (if q ∈ fd then longLived e D q else pointsIn D q) ++ pads ∧ ∀ p ∈ pads, p.b = p.d) :
    matchingDistance ⊤ (pointsIn D q) (pointsIn D' q) ≤ e / 2 := by
  obtain ⟨pads, h1, h2⟩ := h
  by_cases hq : q ∈ fd
  · rw [if_pos hq] at h1
    rw [h1]
    exact bottleneck_le _ (by linarith) _ _ (filtered_matching e D pads q he hv h2)
  · rw [if_neg hq] at h1
    rw [matchingDistance_congr ⊤ le_top (D' := pointsIn D q) (E' := pointsIn D q) (List.Perm.refl _) ?_]
    · have := ((C98_exact ⊤ le_top (matchingDistance ⊤) (fun D E _ _ => by simp) [q] (by simp)).2 q (by simp)).1.zero D (Set.mem_univ _)
      beta_reduce at this
      rw [this]
      linarith
    · rw [features_iff_same]
      unfold SameFeatures
      rw [h1]
      unfold offDiag
      rw [List.filter_append, (List.filter_eq_nil_iff (l := pads)).mpr (by intro p hp; simpa using h2 p hp), List.append_nil]

/-- **C141**, distances: `Filtering` with a non-negative `epsilon` moves no diagram by more than half of `epsilon` in the bottleneck distance, in any dimension: so says `PairwiseDistance` for the diagrams before and after filtering. -/
theorem C141_distance (engine : List (Pt ℝ Q) → List (Pt ℝ Q) → ℝ) (hengine : WithinError 0 ⊤ engine) (dims : List Q) (hd : dims ≠ []) (nJobs : Nat) (hn : 1 ≤ nJobs)
    (X : List (List (Pt ℝ Q))) (fd : List Q) (e : ℝ) (he : 0 ≤ e) (hX : X ≠ []) (hfd : fd.Nodup) (h : ∀ q, EqualCounts X q) (hv : ∀ D ∈ X, ∀ p ∈ D, p.b ≤ p.d) :
    ∃ R A, filterDiagrams X fd e = .ok R ∧ matchingPairwise engine dims nJobs X R = .ok A ∧
      ∀ i k, i < X.length → k < dims.length → ∃ a, entry3 A i i k = some a ∧ 0 ≤ a ∧ a ≤ e / 2 := by
  obtain ⟨R, hR, hl, hE, hp⟩ := filtered_points X fd e hX hfd h
  have hR' : R ≠ [] := by
    rintro rfl
    exact hX (List.length_eq_zero_iff.mp hl.symm)
  obtain ⟨A, a1, _, _, a2⟩ := (C98_exact ⊤ le_top engine hengine dims hd).1 nJobs X R hn hX hR' (fun q _ => h q) (fun q _ => hE q) (by simp) (by simp)
  refine ⟨R, A, hR, a1, ?_⟩
  intro i k hi hk
  have hi' : i < R.length := hl ▸ hi
  refine ⟨_, a2 i i k _ _ _ (List.getElem?_eq_getElem hi) (List.getElem?_eq_getElem hi') (List.getElem?_eq_getElem hk), matchingDistance_nonneg ⊤ ENNReal.zero_lt_top _ _, ?_⟩
  exact filtered_near fd e he _ _ _ (hv _ (List.getElem_mem hi)) (hp i _ _ _ (List.getElem?_eq_getElem hi) (List.getElem?_eq_getElem hi'))

/-- **C141**, comparisons: filtering two collections with the same `epsilon` changes no bottleneck distance between them by more than `epsilon`. -/
theorem C141_comparison (engine : List (Pt ℝ Q) → List (Pt ℝ Q) → ℝ) (hengine : WithinError 0 ⊤ engine) (dims : List Q) (hd : dims ≠ []) (nJobs nJobs' : Nat) (hn : 1 ≤ nJobs) (hn' : 1 ≤ nJobs')
    (X Y : List (List (Pt ℝ Q))) (fd : List Q) (e : ℝ) (he : 0 ≤ e) (hX : X ≠ []) (hY : Y ≠ []) (hfd : fd.Nodup) (h : ∀ q, EqualCounts X q) (h' : ∀ q, EqualCounts Y q)
    (hv : ∀ D ∈ X, ∀ p ∈ D, p.b ≤ p.d) (hv' : ∀ D ∈ Y, ∀ p ∈ D, p.b ≤ p.d) :
    ∃ R S A A', filterDiagrams X fd e = .ok R ∧ filterDiagrams Y fd e = .ok S ∧ matchingPairwise engine dims nJobs X Y = .ok A ∧ matchingPairwise engine dims nJobs' R S = .ok A' ∧
      ∀ i j k, i < X.length → j < Y.length → k < dims.length → ∃ a a', entry3 A i j k = some a ∧ entry3 A' i j k = some a' ∧ |a - a'| ≤ e := by
  obtain ⟨R, hR, hl, hE, hp⟩ := filtered_points X fd e hX hfd h
  obtain ⟨S, hS, hl', hE', hp'⟩ := filtered_points Y fd e hY hfd h'
  have hR' : R ≠ [] := by
    rintro rfl
    exact hX (List.length_eq_zero_iff.mp hl.symm)
  have hS' : S ≠ [] := by
    rintro rfl
    exact hY (List.length_eq_zero_iff.mp hl'.symm)
  have hG := (C98_exact ⊤ le_top engine hengine dims hd).1
  obtain ⟨A, a1, _, _, a2⟩ := hG nJobs X Y hn hX hY (fun q _ => h q) (fun q _ => h' q) (by simp) (by simp)
  obtain ⟨A', b1, _, _, b2⟩ := hG nJobs' R S hn' hR' hS' (fun q _ => hE q) (fun q _ => hE' q) (by simp) (by simp)
  refine ⟨R, S, A, A', hR, hS, a1, b1, ?_⟩
  intro i j k hi hj hk
  have hi' : i < R.length := hl ▸ hi
  have hj' : j < S.length := hl' ▸ hj
  refine ⟨_, _, a2 i j k _ _ _ (List.getElem?_eq_getElem hi) (List.getElem?_eq_getElem hj) (List.getElem?_eq_getElem hk),
    b2 i j k _ _ _ (List.getElem?_eq_getElem hi') (List.getElem?_eq_getElem hj') (List.getElem?_eq_getElem hk), ?_⟩
  have := close_of_near (e / 2) _ _ _ _
    (filtered_near fd e he _ _ dims[k] (hv _ (List.getElem_mem hi)) (hp i _ _ _ (List.getElem?_eq_getElem hi) (List.getElem?_eq_getElem hi')))
    (filtered_near fd e he _ _ dims[k] (hv' _ (List.getElem_mem hj)) (hp' j _ _ _ (List.getElem?_eq_getElem hj) (List.getElem?_eq_getElem hj')))
  linarith

/-- **C141**, `BettiCurve` after `Filtering`: in the filtered dimensions the number of living features with lifetime larger than `epsilon`, in the other ones the number of living features. -/
theorem C141_betti (dims : List Q) (hd : dims ≠ []) (sampling : Q → List ℝ) (nJobs : Nat) (hn : 1 ≤ nJobs)
    (X : List (List (Pt ℝ Q))) (fd : List Q) (e : ℝ) (hX : X ≠ []) (hfd : fd.Nodup) (h : ∀ q, EqualCounts X q) :
    ∃ R A, filterDiagrams X fd e = .ok R ∧ bettiTransform dims sampling nJobs R = .ok A ∧
      ∀ (i k t : Nat) D q s, X[i]? = some D → dims[k]? = some q → (sampling q)[t]? = some s →
        entry3 A i k t = some (D.countP fun p => decide (p.q = q ∧ p.b ≤ s ∧ s < p.d ∧ (q ∈ fd → e < p.d - p.b))) := by
  obtain ⟨R, hR, hl, hE, hp⟩ := filtered_points X fd e hX hfd h
  have hR' : R ≠ [] := by
    rintro rfl
    exact hX (List.length_eq_zero_iff.mp hl.symm)
  obtain ⟨A, a1, _, a2⟩ := C27_betti_curve dims sampling nJobs R hn hd hR' (fun q _ => hE q)
  refine ⟨R, A, hR, a1, ?_⟩
  intro i k t D q s h1 h2 h3
  have hi' : i < R.length := hl ▸ (List.getElem?_eq_some_iff.mp h1).1
  rw [a2 i k t _ q s (List.getElem?_eq_getElem hi') h2 h3]
  obtain ⟨pads, g1, g2⟩ := hp i D _ q h1 (List.getElem?_eq_getElem hi')
  rw [← aliveCount_pointsIn, g1]
  unfold aliveCount
  rw [List.filter_append, (List.filter_eq_nil_iff (l := pads)).mpr (by
    intro p hp
    have := g2 p hp
    simp only [Bool.and_eq_true, decide_eq_true_eq, not_and]
    intro h
    rw [← this]
    simpa using h), List.append_nil]
  congr 1
  by_cases hq : q ∈ fd
  · rw [if_pos hq]
    unfold longLived
    rw [List.filter_filter, ← List.countP_eq_length_filter]
    apply List.countP_congr
    intro p _
    simp [hq]
    tauto
  · rw [if_neg hq]
    unfold pointsIn
    rw [List.filter_filter, ← List.countP_eq_length_filter]
    apply List.countP_congr
    intro p _
    simp [hq]
    tauto

theorem tent_diag (s : ℝ) (p : Pt ℝ Q) (h : p.b = p.d) : tent p.b p.d s = 0 := by
  unfold tent
  rw [h, max_eq_left]
  rcases le_total s p.d with hs | hs
  · exact le_trans (min_le_left _ _) (by linarith)
  · exact le_trans (min_le_right _ _) (by linarith)

/-- **C141**, `PersistenceLandscape` after `Filtering`: no value grows and none falls by more than half of `epsilon`. -/
theorem C141_landscape (dims : List Q) (hd : dims ≠ []) (sampling : Q → List ℝ) (nLayers nJobs nJobs' : Nat) (hn : 1 ≤ nJobs) (hn' : 1 ≤ nJobs')
    (X : List (List (Pt ℝ Q))) (fd : List Q) (e : ℝ) (he : 0 ≤ e) (hX : X ≠ []) (hfd : fd.Nodup) (h : ∀ q, EqualCounts X q) (hv : ∀ D ∈ X, ∀ p ∈ D, p.b ≤ p.d) :
    ∃ R A A', filterDiagrams X fd e = .ok R ∧ landscapeTransform dims sampling nLayers nJobs X = .ok A ∧ landscapeTransform dims sampling nLayers nJobs' R = .ok A' ∧
      ∀ (i j k t : Nat) q s, i < X.length → dims[j]? = some q → k < nLayers → (sampling q)[t]? = some s →
        ∃ a a', entry3 A i (j * nLayers + k) t = some a ∧ entry3 A' i (j * nLayers + k) t = some a' ∧ a' ≤ a ∧ a ≤ a' + e / 2 := by
  obtain ⟨R, hR, hl, hE, hp⟩ := filtered_points X fd e hX hfd h
  have hR' : R ≠ [] := by
    rintro rfl
    exact hX (List.length_eq_zero_iff.mp hl.symm)
  obtain ⟨A, a1, _, _, a2⟩ := C28_landscape dims sampling nLayers nJobs X hn hd hX (fun q _ => h q)
  obtain ⟨A', b1, _, _, b2⟩ := C28_landscape dims sampling nLayers nJobs' R hn' hd hR' (fun q _ => hE q)
  refine ⟨R, A, A', hR, a1, b1, ?_⟩
  intro i j k t q s hi hj hk ht
  have hi' : i < R.length := hl ▸ hi
  obtain ⟨v, v1, v2, v3⟩ := a2 i j k t _ q s (List.getElem?_eq_getElem hi) hj hk ht
  obtain ⟨w, w1, w2, w3⟩ := b2 i j k t _ q s (List.getElem?_eq_getElem hi') hj hk ht
  refine ⟨v, w, v1, w1, ?_, ?_⟩
  · obtain ⟨pads, g1, g2⟩ := hp i _ _ q (List.getElem?_eq_getElem hi) (List.getElem?_eq_getElem hi')
    have hsub : (if q ∈ fd then longLived e X[i] q else pointsIn X[i] q).Sublist (pointsIn X[i] q) := by
      split_ifs
      · unfold longLived pointsIn
        rw [List.sublist_filter_iff]
        refine ⟨X[i].filter fun p => decide (e < p.d - p.b), List.filter_sublist, ?_⟩
        rw [List.filter_filter]
      · exact List.Sublist.refl _
    unfold tents at v2 w2
    change _ → IsNthLargest ((pointsIn _ q).map _) k v at v2
    change _ → IsNthLargest ((pointsIn _ q).map _) k w at w2
    by_contra hlt
    rw [not_le] at hlt
    have hv0 : 0 ≤ v := by
      by_cases hk' : k < (pointsIn X[i] q).length
      · obtain ⟨p, _, hp⟩ := List.mem_map.mp (v2 hk').1
        rw [← hp]
        exact le_max_left _ _
      · rw [v3 (not_lt.mp hk')]
    have hk' : k < (pointsIn R[i] q).length := by
      by_contra hno
      rw [w3 (not_lt.mp hno)] at hlt
      linarith
    have c1 := (w2 hk').2.2
    rw [g1, List.map_append, List.countP_append, (List.countP_eq_zero (l := pads.map _)).mpr (by
      intro y hy
      obtain ⟨p, hp, rfl⟩ := List.mem_map.mp hy
      have := tent_diag s p (g2 p hp)
      simp only [decide_eq_true_eq, not_le]
      rw [this]
      linarith), add_zero] at c1
    have c2 := (hsub.map fun p => tent p.b p.d s).countP_le (p := fun x => decide (w ≤ x))
    have c3 : ((pointsIn X[i] q).map fun p => tent p.b p.d s).countP (fun x => decide (w ≤ x)) ≤ ((pointsIn X[i] q).map fun p => tent p.b p.d s).countP (fun x => decide (v < x)) := by
      apply List.countP_mono_left
      intro x _ hx
      simp only [decide_eq_true_eq] at hx ⊢
      linarith
    by_cases hk2 : k < (pointsIn X[i] q).length
    · have := (v2 hk2).2.1
      omega
    · have := List.countP_le_length (p := fun x => decide (v < x)) (l := (pointsIn X[i] q).map fun p => tent p.b p.d s)
      rw [List.length_map] at this
      omega
  · have := nth_near_bottleneck _ _ s k v w v2 v3 w2 w3
    have h2 := filtered_near fd e he _ _ q (hv _ (List.getElem_mem hi)) (hp i _ _ _ (List.getElem?_eq_getElem hi) (List.getElem?_eq_getElem hi'))
    have := (abs_le.mp this).2
    linarith

/-- **C141**, bottleneck amplitudes after `Filtering` in a filtered dimension: unchanged if the largest lifetime exceeds `epsilon`, zero otherwise. -/
theorem C141_amplitude (dims : List Q) (hd : dims ≠ []) (nJobs nJobs' : Nat) (hn : 1 ≤ nJobs) (hn' : 1 ≤ nJobs')
    (X : List (List (Pt ℝ Q))) (fd : List Q) (e : ℝ) (he : 0 ≤ e) (hX : X ≠ []) (hfd : fd.Nodup) (hdf : ∀ q ∈ dims, q ∈ fd) (h : ∀ q, EqualCounts X q) (hv : ∀ D ∈ X, ∀ p ∈ D, p.b ≤ p.d)
    (ho : ∀ q ∈ dims, ∀ D ∈ X, ∃ p ∈ D, p.q = q) :
    ∃ R A A', filterDiagrams X fd e = .ok R ∧ parallelAmplitude (fun _ => bottleneckAmplitudes) dims nJobs X = .ok A ∧ parallelAmplitude (fun _ => bottleneckAmplitudes) dims nJobs' R = .ok A' ∧
      ∀ (i k : Nat) D q, X[i]? = some D → dims[k]? = some q →
        ∃ a a', entry2 A i k = some a ∧ entry2 A' i k = some a' ∧ ((∃ p ∈ D, p.q = q ∧ e < p.d - p.b) → a' = a) ∧ ((∀ p ∈ D, p.q = q → p.d - p.b ≤ e) → a' = 0) := by
  obtain ⟨R, hR, hl, hE, hp⟩ := filtered_points X fd e hX hfd h
  have hR' : R ≠ [] := by
    rintro rfl
    exact hX (List.length_eq_zero_iff.mp hl.symm)
  have hoR : ∀ q ∈ dims, ∀ D ∈ R, ∃ p ∈ D, p.q = q := by
    intro q hq D' hD'
    rw [filterDiagrams_eq X fd e hX (fun q _ => h q)] at hR
    cases hR
    obtain ⟨D, hD, rfl⟩ := List.mem_map.mp hD'
    unfold filterOne
    by_cases hne : longLived e D q = []
    · refine ⟨padPt X e q, List.mem_append_left _ (List.mem_flatMap.mpr ⟨q, hdf q hq, List.mem_append_right _ ?_⟩), rfl⟩
      rw [hne, List.mem_replicate]
      refine ⟨?_, rfl⟩
      unfold widthOf
      simp
    · obtain ⟨p, hp⟩ := List.exists_mem_of_ne_nil _ hne
      refine ⟨p, List.mem_append_left _ (List.mem_flatMap.mpr ⟨q, hdf q hq, List.mem_append_left _ hp⟩), ?_⟩
      unfold longLived at hp
      have := (List.mem_filter.mp hp).2
      simp only [Bool.and_eq_true, decide_eq_true_eq] at this
      exact this.1
  obtain ⟨α, hα, hval⟩ := C36_bottleneck (K := ℝ) (Q := Q) dims hd
  obtain ⟨A, a1, _, _, a2⟩ := hα nJobs X hn hX (fun q _ => h q) (fun D hD q hq => ho q hq D hD)
  obtain ⟨A', b1, _, _, b2⟩ := hα nJobs' R hn' hR' (fun q _ => hE q) (fun D hD q hq => hoR q hq D hD)
  refine ⟨R, A, A', hR, a1, b1, ?_⟩
  intro i k D q h1 h2
  have hi' : i < R.length := hl ▸ (List.getElem?_eq_some_iff.mp h1).1
  have hq := List.mem_of_getElem? h2
  have hD := List.mem_of_getElem? h1
  obtain ⟨pads, g1, g2⟩ := hp i D _ q h1 (List.getElem?_eq_getElem hi')
  rw [if_pos (hdf q hq)] at g1
  have mem : ∀ p, (p ∈ R[i] ∧ p.q = q) ↔ (p ∈ D ∧ p.q = q ∧ e < p.d - p.b) ∨ p ∈ pads := by
    intro p
    have := mem_pointsIn R[i] q p
    rw [g1, List.mem_append] at this
    rw [← this]
    unfold longLived
    simp
  refine ⟨_, _, a2 i k D q h1 h2, b2 i k _ q (List.getElem?_eq_getElem hi') h2, ?_, ?_⟩
  · rintro ⟨p, p1, p2, p3⟩
    have v1 := (hval q hq D (ho q hq D hD)).1 (hv D hD)
    have hvR : ∀ p ∈ R[i], p.b ≤ p.d := by
      intro y hy
      obtain ⟨pads', e1, e2⟩ := hp i D _ y.q h1 (List.getElem?_eq_getElem hi')
      have hm := (mem_pointsIn R[i] y.q y).mpr ⟨hy, rfl⟩
      rw [e1, List.mem_append] at hm
      rcases hm with hm | hm
      · refine hv D hD y ?_
        split_ifs at hm
        · exact (List.mem_filter.mp hm).1
        · exact ((mem_pointsIn D _ y).mp hm).1
      · exact (e2 y hm).le
    have w1 := (hval q hq R[i] (hoR q hq _ (List.getElem_mem hi'))).1 hvR
    have le1 : 2 * α q D ≤ 2 * α q R[i] := by
      obtain ⟨y, y1, y2, y3⟩ := v1.1
      have := v1.2 ⟨p, p1, p2, rfl⟩
      have hy := (mem y).mpr (.inl ⟨y1, y2, by linarith⟩)
      rw [y3]
      exact w1.2 ⟨y, hy.1, hy.2, rfl⟩
    have le2 : 2 * α q R[i] ≤ 2 * α q D := by
      obtain ⟨y, y1, y2, y3⟩ := w1.1
      rcases (mem y).mp ⟨y1, y2⟩ with ⟨m1, m2, m3⟩ | m
      · rw [y3]
        exact v1.2 ⟨y, m1, m2, rfl⟩
      · have := v1.2 ⟨p, p1, p2, rfl⟩
        rw [y3, g2 y m]
        linarith
    linarith
  · intro hall
    apply (hval q hq R[i] (hoR q hq _ (List.getElem_mem hi'))).2.2.2.2
    intro p p1 p2
    rcases (mem p).mp ⟨p1, p2⟩ with ⟨m1, m2, m3⟩ | m
    · linarith [hall p m1 m2]
    · exact g2 p m

/-- **C141**, `epsilon=0`: filtering removes nothing but diagonal points, so no bottleneck or Wasserstein distance changes. -/
theorem C141_zero (p : ENNReal) (hp : 1 ≤ p) (engine : List (Pt ℝ Q) → List (Pt ℝ Q) → ℝ) (hengine : WithinError 0 p engine) (dims : List Q) (hd : dims ≠ []) (nJobs nJobs' : Nat) (hn : 1 ≤ nJobs) (hn' : 1 ≤ nJobs')
    (X Y : List (List (Pt ℝ Q))) (fd fd' : List Q) (hX : X ≠ []) (hY : Y ≠ []) (hfd : fd.Nodup) (hfd' : fd'.Nodup) (h : ∀ q, EqualCounts X q) (h' : ∀ q, EqualCounts Y q)
    (hv : ∀ D ∈ X, ∀ p ∈ D, p.b ≤ p.d) (hv' : ∀ D ∈ Y, ∀ p ∈ D, p.b ≤ p.d) :
    ∃ R S A A', filterDiagrams X fd 0 = .ok R ∧ filterDiagrams Y fd' 0 = .ok S ∧ matchingPairwise engine dims nJobs X Y = .ok A ∧ matchingPairwise engine dims nJobs' R S = .ok A' ∧
      (∀ (i : Nat) D D' q, X[i]? = some D → R[i]? = some D' → SameFeatures (pointsIn D q) (pointsIn D' q)) ∧
      ∀ i j k, i < X.length → j < Y.length → k < dims.length → ∃ a, entry3 A i j k = some a ∧ entry3 A' i j k = some a := by
  obtain ⟨R, hR, hl, hE, hp1⟩ := filtered_points X fd 0 hX hfd h
  obtain ⟨S, hS, hl', hE', hp2⟩ := filtered_points Y fd' 0 hY hfd' h'
  have hR' : R ≠ [] := by
    rintro rfl
    exact hX (List.length_eq_zero_iff.mp hl.symm)
  have hS' : S ≠ [] := by
    rintro rfl
    exact hY (List.length_eq_zero_iff.mp hl'.symm)
  have same : ∀ (fd : List Q) (D D' : List (Pt ℝ Q)) q, (∀ p ∈ D, p.b ≤ p.d) →
      (∃ pads : List (Pt ℝ Q), pointsIn D' q = (if q ∈ fd then longLived 0 D q else pointsIn D q) ++ pads ∧ ∀ p ∈ pads, p.b = p.d) → SameFeatures (pointsIn D q) (pointsIn D' q) := by
    rintro fd D D' q hv ⟨pads, e1, e2⟩
    unfold SameFeatures
    rw [e1]
    unfold offDiag
    rw [List.filter_append, (List.filter_eq_nil_iff (l := pads)).mpr (by intro p hp; simpa using e2 p hp), List.append_nil]
    split_ifs
    · unfold longLived pointsIn
      rw [List.filter_filter, List.filter_filter]
      apply List.Perm.of_eq
      apply List.filter_congr
      intro y hy
      have := hv y hy
      by_cases hq : y.q = q <;> by_cases hb : y.b = y.d <;> simp [hq, hb]
      exact lt_of_le_of_ne this hb
    · exact List.Perm.refl _
  have hG := (C98_exact p hp engine hengine dims hd).1
  obtain ⟨A, a1, _, _, a2⟩ := hG nJobs X Y hn hX hY (fun q _ => h q) (fun q _ => h' q) (by simp) (by simp)
  obtain ⟨A', b1, _, _, b2⟩ := hG nJobs' R S hn' hR' hS' (fun q _ => hE q) (fun q _ => hE' q) (by simp) (by simp)
  refine ⟨R, S, A, A', hR, hS, a1, b1, ?_, ?_⟩
  · intro i D D' q h1 h2
    exact same fd D D' q (hv D (List.mem_of_getElem? h1)) (hp1 i D D' q h1 h2)
  intro i j k hi hj hk
  have hi' : i < R.length := hl ▸ hi
  have hj' : j < S.length := hl' ▸ hj
  refine ⟨_, a2 i j k _ _ _ (List.getElem?_eq_getElem hi) (List.getElem?_eq_getElem hj) (List.getElem?_eq_getElem hk), ?_⟩
  rw [b2 i j k _ _ _ (List.getElem?_eq_getElem hi') (List.getElem?_eq_getElem hj') (List.getElem?_eq_getElem hk)]
  congr 1
  symm
  apply matchingDistance_congr p hp
  · rw [features_iff_same]
    exact same fd _ _ _ (hv _ (List.getElem_mem hi)) (hp1 i _ _ _ (List.getElem?_eq_getElem hi) (List.getElem?_eq_getElem hi'))
  · rw [features_iff_same]
    exact same fd' _ _ _ (hv' _ (List.getElem_mem hj)) (hp2 j _ _ _ (List.getElem?_eq_getElem hj) (List.getElem?_eq_getElem hj'))

/-! ### Concrete cases -/

/-- Two diagrams in two dimensions; with `epsilon=1` a point of the first one is removed in dimension zero only. -/
def filX (K : Type) [NatCast K] [OfNat K 0] [OfNat K 1] [OfNat K 2] [OfNat K 3] : List (List (Pt K Nat)) :=
  [[⟨0, 3, 0⟩, ⟨0, 1, 0⟩, ⟨1, 2, 1⟩], [⟨1, 3, 0⟩, ⟨0, 0, 0⟩, ⟨2, 3, 1⟩]]

example : filterDiagrams (filX ℚ) [0] 1 = .ok [[⟨0, 3, 0⟩, ⟨1, 2, 1⟩], [⟨1, 3, 0⟩, ⟨2, 3, 1⟩]] := by decide +kernel

theorem filX_counts (q : Nat) : EqualCounts (filX ℝ) q := by
  intro D hD D' hD'
  simp only [filX, List.mem_cons, List.not_mem_nil, or_false] at hD hD'
  rcases hD with rfl | rfl <;> rcases hD' with rfl | rfl <;> simp only [pointsIn, List.filter_cons] <;> split_ifs <;> simp_all

theorem filX_valid : ∀ D ∈ filX ℝ, ∀ p ∈ D, p.b ≤ p.d := by
  intro D hD p hp
  simp only [filX, List.mem_cons, List.not_mem_nil, or_false] at hD
  rcases hD with rfl | rfl <;> simp only [List.mem_cons, List.not_mem_nil, or_false] at hp <;> rcases hp with rfl | rfl | rfl <;> norm_num

example : ∃ R A, filterDiagrams (filX ℝ) [0] 1 = .ok R ∧ matchingPairwise (matchingDistance ⊤) [0, 1] 2 (filX ℝ) R = .ok A ∧
    ∀ i k, i < 2 → k < 2 → ∃ a, entry3 A i i k = some a ∧ 0 ≤ a ∧ a ≤ 1 / 2 :=
  C141_distance (matchingDistance ⊤) (fun D E _ _ => by simp) [0, 1] (by simp) 2 (by norm_num) (filX ℝ) [0] 1 zero_le_one (by simp [filX]) (by simp) filX_counts filX_valid

end Gtda.Props
