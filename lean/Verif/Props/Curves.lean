import Verif.Lemmas.Vectorization
import Mathlib.Data.Rat.Floor

set_option autoImplicit false
set_option linter.unusedSectionVars false

/-!
# C27, C28: Betti curves and persistence landscapes
-/

namespace Gtda.Props
open Gtda.Py Gtda.Parallel Gtda.Diagrams

variable {K Q : Type} [Field K] [LinearOrder K] [DecidableEq Q]

theorem pointsIn_perm {D D' : List (Pt K Q)} (h : SameFeatures D D') (q : Q) : SameFeatures (pointsIn D q) (pointsIn D' q) := by
  unfold SameFeatures offDiag pointsIn at *
  have := h.filter (fun p => decide (p.q = q))
  simpa only [List.filter_filter, Bool.and_comm] using this

theorem aliveAt_offDiag (D : List (Pt K Q)) (q : Q) (s : K) : aliveAt D q s = aliveAt (offDiag D) q s := by
  unfold aliveAt offDiag
  rw [List.countP_filter]
  apply List.countP_congr
  intro p _
  simp only [decide_eq_true_eq, Bool.and_eq_true, ne_eq]
  constructor
  · intro h; exact ⟨h, fun e => absurd (lt_of_le_of_lt h.2.1 h.2.2) (by simp [e])⟩
  · exact fun h => h.1

theorem aliveAt_same (D D' : List (Pt K Q)) (h : SameFeatures D D') (q : Q) (s : K) : aliveAt D q s = aliveAt D' q s := by
  rw [aliveAt_offDiag D, aliveAt_offDiag D']
  exact List.Perm.countP_eq _ h

/-- Two collections whose diagrams have pairwise the same off-diagonal points, used in the examples. -/
def crvX : List (List (Pt ℚ Nat)) := [[⟨0, 2, 0⟩, ⟨1, 3, 0⟩, ⟨1, 1, 1⟩], [⟨0, 1, 0⟩, ⟨0, 4, 1⟩, ⟨5, 5, 0⟩]]
def crvX' : List (List (Pt ℚ Nat)) := [[⟨1, 3, 0⟩, ⟨0, 2, 0⟩, ⟨9, 9, 0⟩], [⟨0, 4, 1⟩, ⟨7, 7, 0⟩, ⟨7, 7, 0⟩, ⟨0, 1, 0⟩]]

/-- **C27.** `BettiCurve.transform`, for every number of jobs: the entry for diagram `i`, the `j`-th homology dimension `q` and the `t`-th sampled value `s` is
the number of points of that diagram in that dimension with birth ≤ `s` < death. -/
theorem C27_betti_curve (dims : List Q) (sampling : Q → List K) (nJobs : Nat) (X : List (List (Pt K Q)))
    (hn : 1 ≤ nJobs) (hd : dims ≠ []) (hX : X ≠ []) (hE : ∀ q ∈ dims, EqualCounts X q) :
    ∃ R, bettiTransform dims sampling nJobs X = .ok R ∧ R.length = X.length ∧
      ∀ (i j t : Nat) D q s, X[i]? = some D → dims[j]? = some q → (sampling q)[t]? = some s → entry3 R i j t = some (aliveAt D q s) := by
  refine ⟨_, bettiTransform_eq dims sampling nJobs X hn hd hX hE, by simp, ?_⟩
  intro i j t D q s h1 h2 h3
  simp [entry3, h1, h2, h3]

example : bettiTransform [0, 1] (fun _ => [0, 1, 2]) 2 crvX = .ok [[[1, 2, 1], [0, 0, 0]], [[1, 0, 0], [1, 1, 1]]] := by decide +kernel
example : (∀ q ∈ [0, 1], EqualCounts crvX q) := by unfold EqualCounts; decide +kernel

/-- **C27.** Reordering points and adding or removing diagonal points (also different numbers of them in different diagrams) does not change Betti curves. -/
theorem C27_order_padding (dims : List Q) (sampling : Q → List K) (nJobs nJobs' : Nat) (X X' : List (List (Pt K Q)))
    (hn : 1 ≤ nJobs) (hn' : 1 ≤ nJobs') (hd : dims ≠ []) (hX : X ≠ []) (hE : ∀ q ∈ dims, EqualCounts X q) (hE' : ∀ q ∈ dims, EqualCounts X' q)
    (h : List.Forall₂ SameFeatures X X') :
    bettiTransform dims sampling nJobs X = bettiTransform dims sampling nJobs' X' := by
  have hX' : X' ≠ [] := by rintro rfl; exact hX (List.forall₂_nil_right_iff.mp h)
  rw [bettiTransform_eq dims sampling nJobs X hn hd hX hE, bettiTransform_eq dims sampling nJobs' X' hn' hd hX' hE']
  congr 1
  clear hE hE' hX hX'
  induction h with
  | nil => rfl
  | cons h _ ih =>
    rw [List.map_cons, List.map_cons, ih]
    congr 1
    apply List.map_congr_left
    intro q _
    apply List.map_congr_left
    intro s _
    exact aliveAt_same _ _ h q s

example : List.Forall₂ SameFeatures crvX crvX' := by
  unfold crvX crvX' SameFeatures
  refine .cons ?_ (.cons ?_ .nil) <;> decide +kernel

/-- **C27.** The Betti curves of the unions of two collections of diagrams are the sums of the Betti curves. -/
theorem C27_additive (dims : List Q) (sampling : Q → List K) (nJobs : Nat) (X X' : List (List (Pt K Q)))
    (hn : 1 ≤ nJobs) (hd : dims ≠ []) (hX : X ≠ []) (hE : ∀ q ∈ dims, EqualCounts X q) (hE' : ∀ q ∈ dims, EqualCounts X' q)
    (hl : X.length = X'.length) :
    ∃ R R' S, bettiTransform dims sampling nJobs X = .ok R ∧ bettiTransform dims sampling nJobs X' = .ok R' ∧
      bettiTransform dims sampling nJobs (List.zipWith (· ++ ·) X X') = .ok S ∧
      ∀ (i j t : Nat) a b, entry3 R i j t = some a → entry3 R' i j t = some b → entry3 S i j t = some (a + b) := by
  have hX' : X' ≠ [] := by rintro rfl; simp at hl; exact hX hl
  have hS : List.zipWith (· ++ ·) X X' ≠ [] := by
    intro h
    rw [List.zipWith_eq_nil_iff] at h
    tauto
  have hES : ∀ q ∈ dims, EqualCounts (List.zipWith (· ++ ·) X X') q := by
    have key : ∀ q ∈ dims, ∀ D ∈ List.zipWith (· ++ ·) X X', ∃ A ∈ X, ∃ B ∈ X', D = A ++ B := by
      intro q _ D hD
      rw [List.mem_iff_getElem?] at hD
      obtain ⟨i, hi⟩ := hD
      rw [List.getElem?_zipWith] at hi
      cases hA : X[i]? with
      | none => simp [hA] at hi
      | some A =>
        cases hB : X'[i]? with
        | none => simp [hA, hB] at hi
        | some B =>
          simp only [hA, hB, Option.some.injEq] at hi
          exact ⟨A, List.mem_of_getElem? hA, B, List.mem_of_getElem? hB, hi.symm⟩
    intro q hq D hD D' hD'
    obtain ⟨A, hA, B, hB, rfl⟩ := key q hq D hD
    obtain ⟨A', hA', B', hB', rfl⟩ := key q hq D' hD'
    have e : ∀ A B : List (Pt K Q), (pointsIn (A ++ B) q).length = (pointsIn A q).length + (pointsIn B q).length := by
      intro A B; simp [pointsIn]
    rw [e, e, hE q hq A hA A' hA', hE' q hq B hB B' hB']
  refine ⟨_, _, _, bettiTransform_eq dims sampling nJobs X hn hd hX hE, bettiTransform_eq dims sampling nJobs X' hn hd hX' hE',
    bettiTransform_eq dims sampling nJobs _ hn hd hS hES, ?_⟩
  intro i j t a b ha hb
  unfold entry3 at *
  simp only [List.getElem?_map, List.getElem?_zipWith] at *
  cases hA : X[i]? with
  | none => simp [hA] at ha
  | some A =>
    cases hB : X'[i]? with
    | none => simp [hB] at hb
    | some B =>
      cases hq : dims[j]? with
      | none => simp [hA, hq] at ha
      | some q =>
        cases hs : (sampling q)[t]? with
        | none => simp [hA, hq, hs] at ha
        | some s =>
          simp [hA, hq, hs] at ha
          simp [hB, hq, hs] at hb
          simp [hq, hs, ← ha, ← hb, aliveAt]

/-- **C27.** The sum of a Betti curve over its sampling is the sum over the points of the number of sampled values during their lifetime. -/
theorem C27_sum (dims : List Q) (sampling : Q → List K) (nJobs : Nat) (X : List (List (Pt K Q)))
    (hn : 1 ≤ nJobs) (hd : dims ≠ []) (hX : X ≠ []) (hE : ∀ q ∈ dims, EqualCounts X q) :
    ∃ R, bettiTransform dims sampling nJobs X = .ok R ∧ ∀ (i j : Nat) D q, X[i]? = some D → dims[j]? = some q →
      ∃ c, (R[i]? >>= fun r => r[j]?) = some c ∧
        c.sum = ((pointsIn D q).map fun p => (sampling q).countP fun s => decide (p.b ≤ s ∧ s < p.d)).sum := by
  refine ⟨_, bettiTransform_eq dims sampling nJobs X hn hd hX hE, ?_⟩
  intro i j D q h1 h2
  refine ⟨(sampling q).map fun s => aliveAt D q s, by simp [h1, h2], ?_⟩
  have hal : ∀ s, aliveAt D q s = (pointsIn D q).countP fun p => decide (p.b ≤ s ∧ s < p.d) := by
    intro s
    unfold aliveAt pointsIn
    rw [List.countP_filter]
    apply List.countP_congr
    intro p _
    simp only [decide_eq_true_eq, Bool.and_eq_true]
    tauto
  simp only [hal]
  generalize pointsIn D q = P
  induction P with
  | nil => simp
  | cons p P ih =>
    rw [List.map_cons, List.sum_cons, ← ih]
    generalize sampling q = L
    clear ih hal
    induction L with
    | nil => simp
    | cons s L ih2 =>
      simp only [List.map_cons, List.sum_cons, List.countP_cons]
      have := ih2
      simp only [List.countP_cons] at this
      rw [this]
      omega

section
variable [IsStrictOrderedRing K]

theorem entry3_landscape (dims : List Q) (sampling : Q → List K) (nLayers : Nat) (X : List (List (Pt K Q))) (i j k t : Nat) (D : List (Pt K Q)) (q : Q) (s : K)
    (h1 : X[i]? = some D) (h2 : dims[j]? = some q) (hk : k < nLayers) (h3 : (sampling q)[t]? = some s) :
    entry3 (X.map fun D => (dims.map fun q => (List.range nLayers).map fun k => (sampling q).map fun s => layerAt (pointsIn D q) k s).flatten)
      i (j * nLayers + k) t = some (layerAt (pointsIn D q) k s) := by
  unfold entry3
  simp only [List.getElem?_map, h1, Option.map_some]
  have := Gtda.getElem?_flatten_uniform (dims.map fun q => (List.range nLayers).map fun k => (sampling q).map fun s => layerAt (pointsIn D q) k s)
    nLayers (by simp) j k hk
  simp [this, h2, List.getElem?_range hk, h3]

/-- **C28.** `PersistenceLandscape.transform`, for every number of jobs: the entry for diagram `i`, layer `k` in the `j`-th homology dimension `q` (row
`j * n_layers + k`) and the `t`-th sampled value `s` is the `(k+1)`-th largest value at `s` of the tent functions of the points in that dimension, and `0` if there
are at most `k` points. -/
theorem C28_landscape (dims : List Q) (sampling : Q → List K) (nLayers nJobs : Nat) (X : List (List (Pt K Q)))
    (hn : 1 ≤ nJobs) (hd : dims ≠ []) (hX : X ≠ []) (hE : ∀ q ∈ dims, EqualCounts X q) :
    ∃ R, landscapeTransform dims sampling nLayers nJobs X = .ok R ∧ R.length = X.length ∧
      (∀ (i : Nat) r, R[i]? = some r → r.length = dims.length * nLayers) ∧
      ∀ (i j k t : Nat) D q s, X[i]? = some D → dims[j]? = some q → k < nLayers → (sampling q)[t]? = some s →
        ∃ v, entry3 R i (j * nLayers + k) t = some v ∧ (k < (pointsIn D q).length → IsNthLargest (tents D q s) k v) ∧
          ((pointsIn D q).length ≤ k → v = 0) := by
  refine ⟨_, landscapeTransform_eq dims sampling nLayers nJobs X hn hd hX hE, by simp, ?_, ?_⟩
  · intro i r hr
    rw [List.getElem?_map] at hr
    cases hD : X[i]? with
    | none => simp [hD] at hr
    | some D =>
      rw [hD, Option.map_some, Option.some.injEq] at hr
      rw [← hr, Gtda.length_flatten_uniform _ nLayers (by simp), List.length_map]
  · intro i j k t D q s h1 h2 hk h3
    refine ⟨_, entry3_landscape dims sampling nLayers X i j k t D q s h1 h2 hk h3, ?_, ?_⟩
    · intro hlt
      have := layerAt_isNth (pointsIn D q) k s hlt
      have e : tents D q s = (pointsIn D q).map (fiber s) := by
        unfold tents
        apply List.map_congr_left
        intro p _
        exact (fiber_eq s p).symm
      rw [e]
      exact this
    · intro hle
      exact layerAt_beyond _ _ _ hle

example : landscapeTransform [0, 1] (fun _ => [1, 3/2, 2]) 3 2 crvX =
    .ok [[[1, 1/2, 1], [0, 1/2, 0], [0, 0, 0], [0, 0, 0], [0, 0, 0], [0, 0, 0]], [[0, 0, 0], [0, 0, 0], [0, 0, 0], [1, 3/2, 2], [0, 0, 0], [0, 0, 0]]] := by
  decide +kernel

/-- **C28.** Landscape values are non-negative, and layers are non-increasing in the layer index. -/
theorem C28_nonneg_antitone (dims : List Q) (sampling : Q → List K) (nLayers nJobs : Nat) (X : List (List (Pt K Q)))
    (hn : 1 ≤ nJobs) (hd : dims ≠ []) (hX : X ≠ []) (hE : ∀ q ∈ dims, EqualCounts X q) :
    ∃ R, landscapeTransform dims sampling nLayers nJobs X = .ok R ∧
      ∀ (i j k t : Nat) D q s, X[i]? = some D → dims[j]? = some q → (sampling q)[t]? = some s → k < nLayers →
        ∃ v, entry3 R i (j * nLayers + k) t = some v ∧ 0 ≤ v ∧
          (k + 1 < nLayers → ∃ w, entry3 R i (j * nLayers + (k + 1)) t = some w ∧ w ≤ v) := by
  refine ⟨_, landscapeTransform_eq dims sampling nLayers nJobs X hn hd hX hE, ?_⟩
  intro i j k t D q s h1 h2 h3 hk
  refine ⟨_, entry3_landscape dims sampling nLayers X i j k t D q s h1 h2 hk h3, layerAt_nonneg _ _ _, ?_⟩
  intro hk'
  exact ⟨_, entry3_landscape dims sampling nLayers X i j (k + 1) t D q s h1 h2 hk' h3, layerAt_succ_le _ _ _⟩

/-- **C28.** Each layer is a 1-Lipschitz function of the sampled value. -/
theorem C28_lipschitz (dims : List Q) (sampling : Q → List K) (nLayers nJobs : Nat) (X : List (List (Pt K Q)))
    (hn : 1 ≤ nJobs) (hd : dims ≠ []) (hX : X ≠ []) (hE : ∀ q ∈ dims, EqualCounts X q) :
    ∃ R, landscapeTransform dims sampling nLayers nJobs X = .ok R ∧
      ∀ (i j k t t' : Nat) D q s s', X[i]? = some D → dims[j]? = some q → k < nLayers → (sampling q)[t]? = some s → (sampling q)[t']? = some s' →
        ∃ v v', entry3 R i (j * nLayers + k) t = some v ∧ entry3 R i (j * nLayers + k) t' = some v' ∧ |v - v'| ≤ |s - s'| := by
  refine ⟨_, landscapeTransform_eq dims sampling nLayers nJobs X hn hd hX hE, ?_⟩
  intro i j k t t' D q s s' h1 h2 hk h3 h3'
  refine ⟨_, _, entry3_landscape dims sampling nLayers X i j k t D q s h1 h2 hk h3,
    entry3_landscape dims sampling nLayers X i j k t' D q s' h1 h2 hk h3', ?_⟩
  have a := layerAt_lipschitz (pointsIn D q) k s s'
  have b := layerAt_lipschitz (pointsIn D q) k s' s
  rw [abs_sub_comm s' s] at b
  rw [abs_le]
  constructor <;> linarith

/-- **C28.** The first layers do not depend on how many layers are requested. -/
theorem C28_layers_independent (dims : List Q) (sampling : Q → List K) (n₁ n₂ nJobs : Nat) (X : List (List (Pt K Q)))
    (hn : 1 ≤ nJobs) (hd : dims ≠ []) (hX : X ≠ []) (hE : ∀ q ∈ dims, EqualCounts X q) :
    ∃ R₁ R₂, landscapeTransform dims sampling n₁ nJobs X = .ok R₁ ∧ landscapeTransform dims sampling n₂ nJobs X = .ok R₂ ∧
      ∀ (i j k t : Nat) D q s, X[i]? = some D → dims[j]? = some q → (sampling q)[t]? = some s → k < n₁ → k < n₂ →
        ∃ v, entry3 R₁ i (j * n₁ + k) t = some v ∧ entry3 R₂ i (j * n₂ + k) t = some v := by
  refine ⟨_, _, landscapeTransform_eq dims sampling n₁ nJobs X hn hd hX hE, landscapeTransform_eq dims sampling n₂ nJobs X hn hd hX hE, ?_⟩
  intro i j k t D q s h1 h2 h3 hk hk'
  exact ⟨_, entry3_landscape dims sampling n₁ X i j k t D q s h1 h2 hk h3, entry3_landscape dims sampling n₂ X i j k t D q s h1 h2 hk' h3⟩

/-- **C28.** Reordering points and adding or removing diagonal points does not change landscapes. -/
theorem C28_order_padding (dims : List Q) (sampling : Q → List K) (nLayers nJobs nJobs' : Nat) (X X' : List (List (Pt K Q)))
    (hn : 1 ≤ nJobs) (hn' : 1 ≤ nJobs') (hd : dims ≠ []) (hX : X ≠ []) (hE : ∀ q ∈ dims, EqualCounts X q) (hE' : ∀ q ∈ dims, EqualCounts X' q)
    (h : List.Forall₂ SameFeatures X X') :
    landscapeTransform dims sampling nLayers nJobs X = landscapeTransform dims sampling nLayers nJobs' X' := by
  have hX' : X' ≠ [] := by rintro rfl; exact hX (List.forall₂_nil_right_iff.mp h)
  rw [landscapeTransform_eq dims sampling nLayers nJobs X hn hd hX hE, landscapeTransform_eq dims sampling nLayers nJobs' X' hn' hd hX' hE']
  congr 1
  clear hE hE' hX hX'
  induction h with
  | nil => rfl
  | cons h _ ih =>
    rw [List.map_cons, List.map_cons, ih]
    congr 2
    apply List.map_congr_left
    intro q _
    apply List.map_congr_left
    intro k _
    apply List.map_congr_left
    intro s _
    exact layerAt_same _ _ (pointsIn_perm h q) k s

end

end Gtda.Props
