import Verif.Model.PerDim
import Verif.Lemmas.Diagrams
import Verif.Props.Parallel

set_option autoImplicit false
set_option linter.unusedSectionVars false

/-! Lemmas about the pattern "one task per homology dimension and slice". -/

namespace Gtda.Diagrams
open Gtda.Py Gtda.Parallel Gtda.Props

theorem transposeN_map {α β γ : Type} (f : α → β → γ) (A : List α) (B : List β) :
    transposeN B.length (A.map fun a => B.map (f a)) = B.map fun b => A.map fun a => f a b := by
  unfold transposeN
  apply List.ext_getElem? 
  intro i
  simp only [List.getElem?_map, List.getElem?_range]
  by_cases h : i < B.length
  · rw [List.getElem?_range h, List.getElem?_eq_getElem h]
    simp [List.filterMap_map, Function.comp_def, List.getElem?_eq_getElem h]
  · rw [List.getElem?_eq_none (by simpa using h), List.getElem?_eq_none (by simpa using h)]
    rfl

section
variable {K Q : Type} [DecidableEq Q] {β : Type}

theorem equalCounts_sub (X Y : List (List (Pt K Q))) (q : Q) (h : EqualCounts X q) (hs : ∀ D ∈ Y, D ∈ X) : EqualCounts Y q :=
  fun D hD D' hD' => h D (hs D hD) D' (hs D' hD')

theorem subdiagrams_single (X : List (List (Pt K Q))) (q : Q) (hX : X ≠ []) (h : EqualCounts X q) :
    subdiagrams X [q] = .ok (X.map fun D => pointsIn D q) := by
  cases X with
  | nil => exact absurd rfl hX
  | cons a t => exact subdiagramsSingle_eq (a :: t) q hX h

theorem perDim_slices (F : Q → List (List (Pt K Q)) → PyM (List β)) (f : List (Pt K Q) → β) (X : List (List (Pt K Q))) (q : Q)
    (hq : EqualCounts X q) (hF : ∀ Y : List (List (Pt K Q)), Y ≠ [] → (∀ D ∈ Y, D ∈ X) →
      F q (Y.map fun D => pointsIn D q) = .ok (Y.map fun D => f (pointsIn D q)))
    {a b : Nat} {l : List (Nat × Nat)} (h : Contiguous a b l) (hb : b = X.length) :
    ∃ r, l.mapM (fun s => perDimTask F X (q, s)) = .ok r ∧ r.flatten = (X.drop a).map fun D => f (pointsIn D q) := by
  induction h with
  | nil a => subst hb; exact ⟨[], by simp⟩
  | @cons a m b l h1 h2 ih =>
    obtain ⟨r, hr, hr'⟩ := ih hb
    have hm := contiguous_le h2
    have hsub : ∀ D ∈ (X.drop a).take (m - a), D ∈ X := fun D hD => List.mem_of_mem_drop (List.mem_of_mem_take hD)
    have hne : (X.drop a).take (m - a) ≠ [] := by
      intro h
      have := congrArg List.length h
      simp at this
      omega
    have htask : perDimTask F X (q, (a, m)) = .ok (((X.drop a).take (m - a)).map fun D => f (pointsIn D q)) := by
      unfold perDimTask
      simp only
      rw [pySlice_block X a m (by omega) (by omega), subdiagrams_single _ q hne (equalCounts_sub X _ q hq hsub)]
      exact hF _ hne hsub
    refine ⟨(((X.drop a).take (m - a)).map fun D => f (pointsIn D q)) :: r, ?_, ?_⟩
    · rw [List.mapM_cons, htask, hr]
      rfl
    · rw [List.flatten_cons, hr', ← List.map_append]
      congr 1
      exact (drop_eq_take_append_drop X a m (by omega)).symm

theorem mapM_append_ok {α γ : Type} {f : α → PyM γ} {l1 l2 : List α} {r1 r2 : List γ} (h1 : l1.mapM f = .ok r1) (h2 : l2.mapM f = .ok r2) :
    (l1 ++ l2).mapM f = .ok (r1 ++ r2) := by
  rw [List.mapM_append, h1, h2]; rfl

theorem perDim_parts (F : Q → List (List (Pt K Q)) → PyM (List β)) (f : Q → List (Pt K Q) → β) (dims : List Q) (nJobs : Nat)
    (hn : 1 ≤ nJobs) (X : List (List (Pt K Q))) (hX : X ≠ []) (hE : ∀ q ∈ dims, EqualCounts X q)
    (hF : ∀ q ∈ dims, ∀ Y : List (List (Pt K Q)), Y ≠ [] → (∀ D ∈ Y, D ∈ X) →
      F q (Y.map fun D => pointsIn D q) = .ok (Y.map fun D => f q (pointsIn D q))) :
    ∃ r, (perDimTasks dims nJobs X.length).mapM (perDimTask F X) = .ok r ∧ (dims ≠ [] → r ≠ []) ∧
      r.flatten = (dims.map fun q => X.map fun D => f q (pointsIn D q)).flatten := by
  induction dims with
  | nil => exact ⟨[], rfl, fun h => absurd rfl h, rfl⟩
  | cons q t ih =>
    obtain ⟨r, hr, -, hr'⟩ := ih (fun q hq => hE q (List.mem_cons_of_mem _ hq)) (fun q hq => hF q (List.mem_cons_of_mem _ hq))
    obtain ⟨r0, h0, h0'⟩ := perDim_slices F (f q) X q (hE q List.mem_cons_self) (hF q List.mem_cons_self)
      (C17_slices_partition X.length nJobs hn) rfl
    refine ⟨r0 ++ r, ?_, ?_, ?_⟩
    · unfold perDimTasks
      rw [List.flatMap_cons]
      refine mapM_append_ok ?_ hr
      rw [List.mapM_map]
      exact h0
    · rintro - h
      obtain ⟨h1, h2⟩ := List.append_eq_nil_iff.mp h
      rw [h1] at h0'
      simp only [List.flatten_nil, List.drop_zero] at h0'
      exact hX (List.map_eq_nil_iff.mp h0'.symm)
    · rw [List.flatten_append, h0', hr']
      rfl

/-- If the batch function treats diagrams one by one, so does the parallel computation, and the result at `[i][j]` belongs to diagram `i` and
the `j`-th homology dimension. -/
theorem perDim_eq (F : Q → List (List (Pt K Q)) → PyM (List β)) (f : Q → List (Pt K Q) → β) (dims : List Q) (nJobs : Nat)
    (hn : 1 ≤ nJobs) (hd : dims ≠ []) (X : List (List (Pt K Q))) (hX : X ≠ []) (hE : ∀ q ∈ dims, EqualCounts X q)
    (hF : ∀ q ∈ dims, ∀ Y : List (List (Pt K Q)), Y ≠ [] → (∀ D ∈ Y, D ∈ X) →
      F q (Y.map fun D => pointsIn D q) = .ok (Y.map fun D => f q (pointsIn D q))) :
    perDim F dims nJobs X = .ok (X.map fun D => dims.map fun q => f q (pointsIn D q)) := by
  obtain ⟨r, hr, hne, hr'⟩ := perDim_parts F f dims nJobs hn X hX hE hF
  unfold perDim
  rw [hr]
  simp only [ok_bind]
  have hc : concatAxis0 r = .ok r.flatten := by
    cases r with
    | nil => exact absurd rfl (hne hd)
    | cons a t => rfl
  rw [hc]
  simp only [ok_bind]
  have hre := reshape2_flatten (dims.map fun q => X.map fun D => f q (pointsIn D q)) X.length (by
    intro l hl
    rw [List.mem_map] at hl
    obtain ⟨q, -, rfl⟩ := hl
    simp)
  rw [List.length_map] at hre
  rw [hr', hre]
  simp only [ok_bind]
  rw [transposeN_map]

end

end Gtda.Diagrams
