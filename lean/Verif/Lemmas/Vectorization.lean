import Verif.Model.Vectorization
import Verif.Spec.Vectorization
import Verif.Lemmas.PerDim
import Mathlib.Tactic.Linarith
import Mathlib.Tactic.Ring
import Mathlib.Tactic.FieldSimp

set_option autoImplicit false
set_option linter.unusedSectionVars false

/-! Lemmas about Betti curves, landscapes and samplings. -/

namespace Gtda.Diagrams
open Gtda.Py Gtda.Parallel

variable {K Q : Type} [Field K] [LinearOrder K]

theorem bettiCurves_eq (Y : List (List (Pt K Q))) (sampling : List K) :
    bettiCurves Y sampling = Y.map fun D => sampling.map fun s => aliveCount s D := transposeN_map _ _ _

theorem aliveCount_pointsIn [DecidableEq Q] (D : List (Pt K Q)) (q : Q) (s : K) : aliveCount s (pointsIn D q) = aliveAt D q s := by
  unfold aliveCount pointsIn aliveAt
  rw [List.filter_filter, ← List.countP_eq_length_filter]
  apply List.countP_congr
  intro p _
  simp only [ge_iff_le, Bool.and_eq_true, decide_eq_true_eq]
  tauto

theorem bettiTransform_eq [DecidableEq Q] (dims : List Q) (sampling : Q → List K) (nJobs : Nat) (X : List (List (Pt K Q)))
    (hn : 1 ≤ nJobs) (hd : dims ≠ []) (hX : X ≠ []) (hE : ∀ q ∈ dims, EqualCounts X q) :
    bettiTransform dims sampling nJobs X = .ok (X.map fun D => dims.map fun q => (sampling q).map fun s => aliveAt D q s) := by
  unfold bettiTransform
  rw [perDim_eq _ (fun q D => (sampling q).map fun s => aliveCount s D) dims nJobs hn hd X hX hE]
  · simp only [aliveCount_pointsIn]
  · intro q _ Y _ _
    rw [bettiCurves_eq, List.map_map]
    rfl

/-! ### Landscapes -/

/-- Sorted in decreasing order. -/
def sortDown (l : List K) : List K := (sortUp l).reverse

theorem sortUp_length (l : List K) : (sortUp l).length = l.length := List.length_insertionSort _ _
theorem sortDown_length (l : List K) : (sortDown l).length = l.length := by rw [sortDown, List.length_reverse, sortUp_length]
theorem sortDown_perm (l : List K) : (sortDown l).Perm l := (List.reverse_perm _).trans (List.perm_insertionSort _ _)
theorem sortDown_sorted (l : List K) : (sortDown l).Pairwise (· ≥ ·) := by
  unfold sortDown
  rw [List.pairwise_reverse]
  exact (List.pairwise_insertionSort (· ≤ ·) l)

theorem drop_reverse_sortUp (l : List K) (n : Nat) : ((sortUp l).drop (l.length - n)).reverse = (sortDown l).take n := by
  unfold sortDown
  rw [List.take_reverse, sortUp_length]

theorem transpose120_map {α β γ δ : Type} (S : List α) (Y : List β) (m : Nat) (g : α → β → List γ) (h : ∀ s ∈ S, ∀ y ∈ Y, m ≤ (g s y).length) [Inhabited γ] :
    transpose120 Y.length m (S.map fun s => Y.map fun y => g s y) = Y.map fun y => (List.range m).map fun k => S.map fun s => (g s y)[k]?.getD default := by
  unfold transpose120
  apply List.ext_getElem?
  intro i
  simp only [List.getElem?_map]
  by_cases hi : i < Y.length
  · rw [List.getElem?_range hi, List.getElem?_eq_getElem hi]
    simp only [Option.map_some, Option.some.injEq]
    apply List.map_congr_left
    intro k hk
    rw [List.mem_range] at hk
    rw [List.filterMap_map]
    rw [← List.filterMap_eq_map]
    apply List.filterMap_congr
    intro s hs
    have hl := h s hs _ (List.getElem_mem hi)
    simp [List.getElem?_eq_getElem hi, List.getElem?_eq_getElem (show k < (g s Y[i]).length by omega)]
  · rw [List.getElem?_eq_none (by simpa using hi), List.getElem?_eq_none (by simpa using hi)]
    rfl

/-- The `k`-th layer at `s` of a diagram in one dimension. -/
def layerAt (D : List (Pt K Q)) (k : Nat) (s : K) : K := ((sortDown (D.map (fiber s)))[k]?).getD 0

theorem landscapes_eq (Y : List (List (Pt K Q))) (sampling : List K) (nLayers m : Nat) (hY : ∀ D ∈ Y, D.length = m) :
    landscapes Y sampling nLayers = Y.map fun D => (List.range nLayers).map fun k => sampling.map fun s => layerAt D k s := by
  cases Y with
  | nil => simp [landscapes, transpose120]
  | cons Y0 t =>
    have hm : (List.headD (Y0 :: t) []).length = m := hY Y0 List.mem_cons_self
    unfold landscapes
    simp only [hm]
    generalize Y0 :: t = Y at hY ⊢
    letI : Inhabited K := ⟨0⟩
    rw [List.map_map]
    have hf : ((fun F : List (List K) => F.map fun r => (r.drop (m - nLayers)).reverse) ∘ fun s => Y.map fun D => sortUp (D.map (fiber s))) =
        fun s => Y.map fun D => (((sortUp (D.map (fiber s))).drop (m - nLayers)).reverse) := by
      funext s
      simp [Function.comp_def]
    rw [hf, transpose120_map (δ := K) sampling Y (min nLayers m) (fun s D => (((sortUp (D.map (fiber s))).drop (m - nLayers)).reverse))
      (by intro s _ D hD; rw [List.length_reverse, List.length_drop, sortUp_length, List.length_map, hY D hD]; omega), List.map_map]
    apply List.map_congr_left
    intro D hD
    simp only [Function.comp]
    have hlen := hY D hD
    apply List.ext_getElem?
    intro k
    rw [List.getElem?_append]
    simp only [List.length_map, List.length_range]
    split
    · rename_i hk
      rw [List.getElem?_map, List.getElem?_map, List.getElem?_range hk, List.getElem?_range (by omega)]
      simp only [Option.map_some, Option.some.injEq]
      apply List.map_congr_left
      intro s _
      unfold layerAt
      have : (D.map (fiber s)).length = m := by rw [List.length_map, hlen]
      rw [← this, drop_reverse_sortUp, List.getElem?_take_of_lt (by omega)]
      rfl
    · rename_i hk
      rw [List.getElem?_map]
      by_cases hk2 : k < nLayers
      · rw [List.getElem?_replicate_of_lt (by omega), List.getElem?_range hk2]
        simp only [Option.map_some, Option.some.injEq]
        rw [← List.map_const']
        apply List.map_congr_left
        intro s _
        unfold layerAt
        rw [List.getElem?_eq_none (by rw [sortDown_length, List.length_map]; omega)]
        rfl
      · rw [List.getElem?_eq_none (by simp; omega), List.getElem?_eq_none (by simp; omega)]
        rfl

theorem landscapeTransform_eq [DecidableEq Q] (dims : List Q) (sampling : Q → List K) (nLayers nJobs : Nat) (X : List (List (Pt K Q)))
    (hn : 1 ≤ nJobs) (hd : dims ≠ []) (hX : X ≠ []) (hE : ∀ q ∈ dims, EqualCounts X q) :
    landscapeTransform dims sampling nLayers nJobs X =
      .ok (X.map fun D => (dims.map fun q => (List.range nLayers).map fun k => (sampling q).map fun s => layerAt (pointsIn D q) k s).flatten) := by
  unfold landscapeTransform
  rw [perDim_eq _ (fun q D => (List.range nLayers).map fun k => (sampling q).map fun s => layerAt D k s) dims nJobs hn hd X hX hE]
  · simp
  · intro q hq Y hY hsub
    obtain ⟨Y0, hY0⟩ := List.exists_mem_of_ne_nil Y hY
    rw [landscapes_eq _ _ _ (pointsIn Y0 q).length (by
      intro D hD
      rw [List.mem_map] at hD
      obtain ⟨D, hD, rfl⟩ := hD
      exact hE q hq D (hsub D hD) Y0 (hsub Y0 hY0)), List.map_map]
    rfl

section
variable [IsStrictOrderedRing K]

theorem fiber_eq (s : K) (p : Pt K Q) : fiber s p = tent p.b p.d s := by
  unfold fiber tent
  rw [max_comm]
  congr 1
  rcases le_total s ((p.d + p.b) / 2) with h | h
  · rw [abs_of_nonpos (by linarith), min_eq_left (by linarith)]
    ring
  · rw [abs_of_nonneg (by linarith), min_eq_right (by linarith)]
    ring

theorem fiber_nonneg (s : K) (p : Pt K Q) : 0 ≤ fiber s p := le_max_right _ _

theorem fiber_diag (s : K) (p : Pt K Q) (h : p.b = p.d) : fiber s p = 0 := by
  rw [fiber_eq, tent, h]
  apply max_eq_left
  rcases le_total s p.d with h | h
  · exact le_trans (min_le_left _ _) (by linarith)
  · exact le_trans (min_le_right _ _) (by linarith)

theorem fiber_lipschitz (s s' : K) (p : Pt K Q) : fiber s p ≤ fiber s' p + |s - s'| := by
  rw [fiber_eq, fiber_eq, tent, tent]
  have h1 := le_abs_self (s - s')
  have h2 := neg_abs_le (s - s')
  have h3 := abs_nonneg (s - s')
  rw [max_le_iff]
  constructor
  · have := le_max_left 0 (min (s' - p.b) (p.d - s')); linarith
  · have h4 := le_max_right 0 (min (s' - p.b) (p.d - s'))
    rcases le_total (s' - p.b) (p.d - s') with h | h
    · rw [min_eq_left h] at h4 ⊢
      have := min_le_left (s - p.b) (p.d - s); linarith
    · rw [min_eq_right h] at h4 ⊢
      have := min_le_right (s - p.b) (p.d - s); linarith

end

/-! ### Order statistics -/

theorem sorted_nth (l : List K) (h : l.Pairwise (· ≥ ·)) (k : Nat) (v : K) (hk : l[k]? = some v) :
    l.countP (fun x => decide (v < x)) ≤ k ∧ k < l.countP (fun x => decide (v ≤ x)) := by
  induction l generalizing k with
  | nil => simp at hk
  | cons a t ih =>
    rw [List.pairwise_cons] at h
    cases k with
    | zero =>
      rw [List.getElem?_cons_zero, Option.some.injEq] at hk
      subst hk
      constructor
      · rw [Nat.le_zero, List.countP_eq_zero]
        intro x hx
        rcases List.mem_cons.mp hx with rfl | hx
        · simp
        · simpa using h.1 x hx
      · simp
    | succ k =>
      rw [List.getElem?_cons_succ] at hk
      obtain ⟨h1, h2⟩ := ih h.2 k hk
      have hv : v ≤ a := h.1 v (List.mem_of_getElem? hk)
      rw [List.countP_cons, List.countP_cons]
      simp only [hv, decide_true, if_true]
      split <;> omega

theorem nth_isNth (l : List K) (k : Nat) (v : K) (hk : (sortDown l)[k]? = some v) : IsNthLargest l k v := by
  have h := sorted_nth _ (sortDown_sorted l) k v hk
  rw [(sortDown_perm l).countP_eq, (sortDown_perm l).countP_eq] at h
  exact ⟨(sortDown_perm l).mem_iff.mp (List.mem_of_getElem? hk), h⟩

/-- Order statistics are determined by their definition. -/
theorem isNth_le {l l' : List K} {k : Nat} {v v' δ : K} [IsStrictOrderedRing K] (hl : List.Forall₂ (fun x x' => x ≤ x' + δ) l l')
    (h : IsNthLargest l k v) (h' : IsNthLargest l' k v') : v ≤ v' + δ := by
  by_contra hc
  push Not at hc
  have h1 := h.2.2
  have h2 := h'.2.1
  have : ∀ (l l' : List K), List.Forall₂ (fun x x' => x ≤ x' + δ) l l' →
      l.countP (fun x => decide (v ≤ x)) ≤ l'.countP (fun x => decide (v' < x)) := by
    intro l l' hl
    induction hl with
    | nil => simp
    | @cons a b _ _ hab _ ih =>
      rw [List.countP_cons, List.countP_cons]
      by_cases ha : v ≤ a
      · have : v' < b := by linarith
        simp [ha, this]; omega
      · simp [ha]; omega
  have := this l l' hl
  omega

theorem sortDown_eq_of_perm {l l' : List K} (h : l.Perm l') : sortDown l = sortDown l' :=
  ((sortDown_perm l).trans (h.trans (sortDown_perm l').symm)).eq_of_pairwise
    (fun _ _ _ _ h1 h2 => le_antisymm h2 h1) (sortDown_sorted l) (sortDown_sorted l')

theorem sortDown_zeros (l : List K) (n : Nat) (h : ∀ x ∈ l, 0 ≤ x) : sortDown (List.replicate n 0 ++ l) = sortDown l ++ List.replicate n 0 := by
  apply List.Perm.eq_of_pairwise (le := (· ≥ ·)) (fun _ _ _ _ h1 h2 => le_antisymm h2 h1) (sortDown_sorted _)
  · rw [List.pairwise_append]
    refine ⟨sortDown_sorted l, List.pairwise_replicate.mpr (Or.inr le_rfl), ?_⟩
    intro a ha b hb
    rw [List.mem_replicate] at hb
    rw [hb.2]
    exact h a ((sortDown_perm l).mem_iff.mp ha)
  · exact (sortDown_perm _).trans (List.perm_append_comm.trans ((sortDown_perm l).symm.append_right _))

theorem perm_offDiag (D : List (Pt K Q)) : D.Perm ((D.filter fun p => decide (p.b = p.d)) ++ offDiag D) := by
  have := (List.filter_append_perm (fun p : Pt K Q => decide (p.b = p.d)) D).symm
  unfold offDiag
  simpa using this

section
variable [IsStrictOrderedRing K]

theorem layerAt_offDiag (D : List (Pt K Q)) (k : Nat) (s : K) : layerAt D k s = layerAt (offDiag D) k s := by
  unfold layerAt
  rw [sortDown_eq_of_perm ((perm_offDiag D).map (fiber s)), List.map_append]
  have hz : (D.filter fun p => decide (p.b = p.d)).map (fiber s) = List.replicate (D.filter fun p => decide (p.b = p.d)).length 0 := by
    rw [List.eq_replicate_iff]
    refine ⟨by simp, ?_⟩
    intro x hx
    rw [List.mem_map] at hx
    obtain ⟨p, hp, rfl⟩ := hx
    exact fiber_diag s p (by simpa using (List.mem_filter.mp hp).2)
  rw [hz, sortDown_zeros _ _ (by
    intro x hx
    rw [List.mem_map] at hx
    obtain ⟨p, -, rfl⟩ := hx
    exact fiber_nonneg s p), List.getElem?_append]
  split
  · rfl
  · rename_i h
    rw [List.getElem?_eq_none (l := sortDown _) (by omega)]
    rw [List.getElem?_replicate]
    split <;> rfl

theorem layerAt_same (D D' : List (Pt K Q)) (h : SameFeatures D D') (k : Nat) (s : K) : layerAt D k s = layerAt D' k s := by
  rw [layerAt_offDiag D, layerAt_offDiag D']
  unfold layerAt
  rw [sortDown_eq_of_perm (List.Perm.map (fiber s) h)]

theorem layerAt_nonneg (D : List (Pt K Q)) (k : Nat) (s : K) : 0 ≤ layerAt D k s := by
  unfold layerAt
  cases h : (sortDown (D.map (fiber s)))[k]? with
  | none => exact le_rfl
  | some v =>
    have := (sortDown_perm _).mem_iff.mp (List.mem_of_getElem? h)
    rw [List.mem_map] at this
    obtain ⟨p, -, rfl⟩ := this
    exact fiber_nonneg s p

theorem layerAt_succ_le (D : List (Pt K Q)) (k : Nat) (s : K) : layerAt D (k + 1) s ≤ layerAt D k s := by
  by_cases h : k + 1 < (sortDown (D.map (fiber s))).length
  · have := List.pairwise_iff_getElem.mp (sortDown_sorted (D.map (fiber s))) k (k + 1) (by omega) h (by omega)
    unfold layerAt
    rw [List.getElem?_eq_getElem h, List.getElem?_eq_getElem (by omega)]
    exact this
  · have : layerAt D (k + 1) s = 0 := by
      unfold layerAt
      rw [List.getElem?_eq_none (by omega)]
      rfl
    rw [this]
    exact layerAt_nonneg D k s

theorem layerAt_isNth (D : List (Pt K Q)) (k : Nat) (s : K) (hk : k < D.length) : IsNthLargest (D.map (fiber s)) k (layerAt D k s) := by
  apply nth_isNth
  unfold layerAt
  rw [List.getElem?_eq_getElem (by rw [sortDown_length, List.length_map]; exact hk)]
  rfl

theorem layerAt_beyond (D : List (Pt K Q)) (k : Nat) (s : K) (hk : D.length ≤ k) : layerAt D k s = 0 := by
  unfold layerAt
  rw [List.getElem?_eq_none (by rw [sortDown_length, List.length_map]; exact hk)]
  rfl

theorem layerAt_lipschitz (D : List (Pt K Q)) (k : Nat) (s s' : K) : layerAt D k s ≤ layerAt D k s' + |s - s'| := by
  by_cases hk : k < D.length
  · refine isNth_le ?_ (layerAt_isNth D k s hk) (layerAt_isNth D k s' hk)
    rw [List.forall₂_map_left_iff, List.forall₂_map_right_iff, List.forall₂_same]
    exact fun p _ => fiber_lipschitz s s' p
  · rw [layerAt_beyond D k s (by omega), layerAt_beyond D k s' (by omega)]
    have := abs_nonneg (s - s')
    linarith

end

end Gtda.Diagrams
