import Verif.Model.Distances
import Verif.Lemmas.Vectorization
import Verif.Spec.Distances

set_option autoImplicit false
set_option linter.unusedSectionVars false

/-! Lemmas about the assembly of pairwise distances. -/

namespace Gtda.Diagrams
open Gtda.Py Gtda.Parallel Gtda.Props

variable {K Q : Type}

theorem contiguous_mem {a b : Nat} {l : List (Nat × Nat)} (h : Contiguous a b l) : ∀ s ∈ l, s.1 < s.2 ∧ s.2 ≤ b := by
  induction h with
  | nil => simp
  | @cons a m b l h1 h2 ih =>
    intro s hs
    rcases List.mem_cons.mp hs with rfl | hs
    · exact ⟨h1, contiguous_le h2⟩
    · exact ih s hs

theorem stackAxis2_map {α β δ R : Type} (A : List α) (B : List β) (C : List δ) (f : α → β → δ → R) :
    stackAxis2 A.length B.length (C.map fun c => A.map fun a => B.map fun b => f a b c) = A.map fun a => B.map fun b => C.map fun c => f a b c := by
  unfold stackAxis2
  apply List.ext_getElem?
  intro i
  rw [List.getElem?_map, List.getElem?_map]
  by_cases hi : i < A.length
  · rw [List.getElem?_range hi, List.getElem?_eq_getElem hi]
    simp only [Option.map_some, Option.some.injEq]
    apply List.ext_getElem?
    intro j
    rw [List.getElem?_map, List.getElem?_map]
    by_cases hj : j < B.length
    · rw [List.getElem?_range hj, List.getElem?_eq_getElem hj]
      simp [List.filterMap_map, Function.comp_def, List.getElem?_eq_getElem hi, List.getElem?_eq_getElem hj]
    · rw [List.getElem?_eq_none (by simpa using hj), List.getElem?_eq_none (by simpa using hj)]
      rfl
  · rw [List.getElem?_eq_none (by simpa using hi), List.getElem?_eq_none (by simpa using hi)]
    rfl

section
variable [DecidableEq Q] {R : Type}

theorem parallelPairwise_eq (metric : Q → List (List (Pt K Q)) → List (List (Pt K Q)) → PyM (List (List R)))
    (δ : Q → List (Pt K Q) → List (Pt K Q) → R) (X1 X2 : List (List (Pt K Q))) (dims : List Q) (nJobs : Nat) (hn : 1 ≤ nJobs) (hd : dims ≠ [])
    (h1 : X1 ≠ []) (h2 : X2 ≠ []) (hE1 : ∀ q ∈ dims, EqualCounts X1 q) (hE2 : ∀ q ∈ dims, EqualCounts X2 q)
    (hm : ∀ q ∈ dims, ∀ Y : List (List (Pt K Q)), Y ≠ [] → (∀ D ∈ Y, D ∈ X2) →
      metric q (X1.map fun D => pointsIn D q) (Y.map fun D => pointsIn D q) =
        .ok (X1.map fun D => Y.map fun D' => δ q (pointsIn D q) (pointsIn D' q))) :
    parallelPairwise metric X1 X2 dims nJobs = .ok (X1.map fun D => X2.map fun D' => dims.map fun q => δ q (pointsIn D q) (pointsIn D' q)) := by
  have hc := C17_slices_partition X2.length nJobs hn
  let F : Q × (Nat × Nat) → List (Pt K Q) → List R := fun t D =>
    (pySlice (some (t.2.1 : Int)) (some (t.2.2 : Int)) 1 X2).map fun D' => δ t.1 (pointsIn D t.1) (pointsIn D' t.1)
  have htask : ∀ t ∈ perDimTasks dims nJobs X2.length, pairwiseTask metric X1 X2 t = .ok (X1.map (F t)) := by
    intro t ht
    unfold perDimTasks at ht
    rw [List.mem_flatMap] at ht
    obtain ⟨q, hq, ht⟩ := ht
    rw [List.mem_map] at ht
    obtain ⟨s, hs, rfl⟩ := ht
    obtain ⟨hs1, hs2⟩ := contiguous_mem hc s hs
    have hsub : ∀ D ∈ (X2.drop s.1).take (s.2 - s.1), D ∈ X2 := fun D hD => List.mem_of_mem_drop (List.mem_of_mem_take hD)
    have hne : (X2.drop s.1).take (s.2 - s.1) ≠ [] := by
      intro h
      have := congrArg List.length h
      simp at this
      omega
    unfold pairwiseTask
    simp only [F]
    rw [subdiagrams_single X1 q h1 (hE1 q hq)]
    simp only [ok_bind]
    rw [pySlice_block X2 s.1 s.2 (by omega) hs2, subdiagrams_single _ q hne (equalCounts_sub X2 _ q (hE2 q hq) hsub)]
    simp only [ok_bind]
    exact hm q hq _ hne hsub
  have htne : perDimTasks dims nJobs X2.length ≠ [] := by
    obtain ⟨q, t, rfl⟩ := List.exists_cons_of_ne_nil hd
    unfold perDimTasks
    rw [List.flatMap_cons]
    intro h
    obtain ⟨h, -⟩ := List.append_eq_nil_iff.mp h
    rw [List.map_eq_nil_iff] at h
    rw [h] at hc
    have : X2.length = 0 := by
      generalize hz : X2.length = z at hc
      cases hc
      rfl
    exact h2 (List.length_eq_zero_iff.mp this)
  unfold parallelPairwise
  dsimp only
  rw [mapM_ok htask]
  simp only [ok_bind]
  have hjoin : concatAxis1 X1.length ((perDimTasks dims nJobs X2.length).map fun t => X1.map (F t)) =
      .ok (X1.map fun D => dims.flatMap fun q => X2.map fun D' => δ q (pointsIn D q) (pointsIn D' q)) := by
    have : concatAxis1 X1.length ((perDimTasks dims nJobs X2.length).map fun t => X1.map (F t)) =
        .ok (((perDimTasks dims nJobs X2.length).map fun t => X1.map (F t)).foldr (List.zipWith (· ++ ·)) (List.replicate X1.length [])) := by
      obtain ⟨t, l, h⟩ := List.exists_cons_of_ne_nil htne
      rw [h]
      rfl
    rw [this]
    congr 1
    have hr : List.replicate X1.length ([] : List R) = X1.map fun _ => [] := (List.map_const' ..).symm
    rw [hr, concat_map' X1 F (fun _ => [])]
    apply List.map_congr_left
    intro D _
    rw [List.append_nil]
    unfold perDimTasks
    rw [List.flatMap_assoc]
    apply List.flatMap_congr
    intro q _
    have := contiguous_concat (fun Y : List (List (Pt K Q)) => Y.map fun D' => δ q (pointsIn D q) (pointsIn D' q)) (fun A B => List.map_append ..) X2 hc rfl
    rw [List.drop_zero] at this
    rw [← this, List.flatMap_map]
    rfl
  rw [hjoin]
  simp only [ok_bind]
  congr 1
  have hblock : ((List.range dims.length).map fun i =>
      (X1.map fun D => dims.flatMap fun q => X2.map fun D' => δ q (pointsIn D q) (pointsIn D' q)).map fun row =>
        pySlice (some ((i * X2.length : Nat) : Int)) (some (((i + 1) * X2.length : Nat) : Int)) 1 row) =
      dims.map fun q => X1.map fun D => X2.map fun D' => δ q (pointsIn D q) (pointsIn D' q) := by
    apply List.ext_getElem?
    intro i
    rw [List.getElem?_map, List.getElem?_map]
    by_cases hi : i < dims.length
    · rw [List.getElem?_range hi, List.getElem?_eq_getElem hi]
      simp only [Option.map_some, Option.some.injEq]
      rw [List.map_map]
      apply List.map_congr_left
      intro D _
      simp only [Function.comp]
      have hu : ∀ l ∈ dims.map fun q => X2.map fun D' => δ q (pointsIn D q) (pointsIn D' q), l.length = X2.length := by simp
      have hlen := Gtda.length_flatten_uniform _ X2.length hu
      rw [List.length_map] at hlen
      have hb : (i + 1) * X2.length ≤ dims.length * X2.length := Nat.mul_le_mul_right _ hi
      rw [List.flatMap_def, pySlice_block _ _ _ (Nat.mul_le_mul_right _ (by omega)) (by rw [hlen]; exact hb)]
      have := chunks_flatten _ X2.length hu
      have := congrArg (fun l : List (List R) => l[i]?) this
      simp only [List.getElem?_map, List.length_map, List.getElem?_range hi, List.getElem?_eq_getElem hi, Option.map_some, Option.some.injEq] at this
      rw [show (i + 1) * X2.length - i * X2.length = X2.length by rw [Nat.add_mul, Nat.one_mul, Nat.add_sub_cancel_left]]
      exact this
    · rw [List.getElem?_eq_none (by simpa using hi), List.getElem?_eq_none (by simpa using hi)]
      rfl
  rw [hblock, stackAxis2_map]

end

/-- The shortcut for equal arrays gives all distances, for a distance which is symmetric and zero on equal arguments. -/
theorem squarePdist_eq {V R : Type} (zero : R) (d : V → V → R) (A : List V) (hs : ∀ a ∈ A, ∀ b ∈ A, d a b = d b a) (h0 : ∀ a ∈ A, d a a = zero) :
    squarePdist zero d A = A.map fun a => A.map fun b => d a b := by
  unfold squarePdist
  apply List.ext_getElem?
  intro i
  rw [List.getElem?_map, List.getElem?_map]
  by_cases hi : i < A.length
  · rw [List.getElem?_range hi, List.getElem?_eq_getElem hi]
    simp only [Option.map_some, Option.some.injEq]
    have : ∀ j ∈ List.range A.length, (A[i]? >>= fun a => A[j]? >>= fun b => some (if i = j then zero else if i < j then d a b else d b a)) =
        (A[j]?).map fun b => d A[i] b := by
      intro j hj
      rw [List.mem_range] at hj
      rw [List.getElem?_eq_getElem hi, List.getElem?_eq_getElem hj]
      simp only [Option.bind_eq_bind, Option.bind_some, Option.map_some, Option.some.injEq]
      split
      · rename_i e; subst e; rw [h0 _ (List.getElem_mem hi)]
      · split
        · rfl
        · rw [hs _ (List.getElem_mem hj) _ (List.getElem_mem hi)]
    rw [List.filterMap_congr this]
    apply List.ext_getElem?
    intro j
    have key : ((List.range A.length).filterMap fun j => (A[j]?).map fun b => d A[i] b) = A.map fun b => d A[i] b := by
      have h2 : (List.range A.length).filterMap (fun j => (A[j]?).map fun b => d A[i] b) = ((List.range A.length).filterMap fun j => A[j]?).map fun b => d A[i] b := by
        rw [List.map_filterMap]
      rw [h2]
      congr 1
      have h3 : (List.range A.length).filterMap (fun j => A[j]?) = A := by
        apply List.ext_getElem?
        intro k
        have := Gtda.getElem?_filterMap_total (fun j => A[j]?) (List.range A.length) (by
          intro a ha
          rw [List.mem_range] at ha
          rw [List.getElem?_eq_getElem ha]
          rfl) k
        rw [this]
        by_cases hk : k < A.length
        · rw [List.getElem?_range hk]; rfl
        · rw [List.getElem?_eq_none (by simpa using hk), List.getElem?_eq_none (by simpa using hk)]; rfl
      exact h3
    rw [key]
  · rw [List.getElem?_eq_none (by simpa using hi), List.getElem?_eq_none (by simpa using hi)]
    rfl

theorem batchDistances_eq {V R : Type} [DecidableEq K] [DecidableEq Q] (zero : R) (vecs : List (List (Pt K Q)) → PyM (List V)) (vec : List (Pt K Q) → V) (d : V → V → R)
    (Y1 Y2 : List (List (Pt K Q))) (h1 : vecs Y1 = .ok (Y1.map vec)) (h2 : vecs Y2 = .ok (Y2.map vec))
    (hs : ∀ a ∈ Y1, ∀ b ∈ Y1, d (vec a) (vec b) = d (vec b) (vec a)) (h0 : ∀ a ∈ Y1, d (vec a) (vec a) = zero) :
    batchDistances zero vecs d Y1 Y2 = .ok (Y1.map fun a => Y2.map fun b => d (vec a) (vec b)) := by
  unfold batchDistances
  rw [h1]
  simp only [ok_bind]
  split
  · rename_i h
    subst h
    rw [squarePdist_eq zero d _ (by simpa using hs) (by simpa using h0), List.map_map]
    simp [Function.comp_def]
  · rw [h2]
    simp [Function.comp_def]

/-! ### Norms -/

theorem foldl_max_iSup (l : List ℝ) (a : ℝ) (c : ℝ) : l.foldl max a ≤ c ↔ a ≤ c ∧ ∀ x ∈ l, x ≤ c := by
  induction l generalizing a with
  | nil => simp
  | cons b t ih => rw [List.foldl_cons, ih, max_le_iff]; simp [and_assoc]

theorem pNorm_eq (p : ENNReal) (hp : 0 < p) (v : List ℝ) : pNorm p v = lpNorm p v := by
  unfold pNorm lpNorm lpVec
  split
  · rename_i h
    subst h
    rw [PiLp.norm_eq_ciSup]
    apply le_antisymm
    · rw [foldl_max_iSup]
      refine ⟨Real.iSup_nonneg fun i => norm_nonneg _, ?_⟩
      intro x hx
      rw [List.mem_map] at hx
      obtain ⟨y, hy, rfl⟩ := hx
      obtain ⟨i, hi, rfl⟩ := List.getElem_of_mem hy
      have := le_ciSup (f := fun i : Fin v.length => ‖v[(i : Nat)]?.getD 0‖) (Set.finite_range _).bddAbove ⟨i, hi⟩
      rw [List.getElem?_eq_getElem hi] at this
      simpa using this
    · apply Real.iSup_le
      · intro i
        have := ((foldl_max_iSup (v.map fun x => |x|) 0 _).mp le_rfl).2 |v[(i : Nat)]| (List.mem_map_of_mem (List.getElem_mem i.2))
        simpa [List.getElem?_eq_getElem i.2] using this
      · exact ((foldl_max_iSup _ 0 _).mp le_rfl).1
  · rename_i h
    have hpos : 0 < p.toReal := ENNReal.toReal_pos (ne_of_gt hp) h
    rw [PiLp.norm_eq_sum hpos]
    congr 1
    have hl : (v.map fun x => |x| ^ p.toReal) = List.ofFn fun i : Fin v.length => ‖v[(i : Nat)]?.getD 0‖ ^ p.toReal := by
      apply List.ext_getElem
      · simp
      · intro i h1 h2
        rw [List.length_map] at h1
        simp [List.getElem?_eq_getElem h1]
    rw [hl, List.sum_ofFn]

theorem lpNorm_nonneg (p : ENNReal) (v : List ℝ) : 0 ≤ lpNorm p v := by
  rcases eq_or_ne p 0 with h | h
  · subst h
    unfold lpNorm
    rw [PiLp.norm_eq_card]
    positivity
  · rw [← pNorm_eq p (pos_iff_ne_zero.mpr h)]
    unfold pNorm
    split
    · exact ((foldl_max_iSup _ 0 _).mp le_rfl).1
    · apply Real.rpow_nonneg
      apply List.sum_nonneg
      simp only [List.mem_map, forall_exists_index, and_imp]
      rintro _ x _ rfl
      positivity

theorem lpDist_eq_norm (p : ENNReal) (hp : 0 < p) (u v : List ℝ) (h : u.length = v.length) : pNorm p (List.zipWith (· - ·) u v) = lpDist p u v := by
  rw [pNorm_eq p hp]
  unfold lpNorm lpDist
  have hl : (List.zipWith (· - ·) u v).length = u.length := by simp [h]
  have key : ∀ n, n = u.length → ‖lpVec p n fun i => (List.zipWith (· - ·) u v)[i]?.getD 0‖ =
      dist (lpVec p n fun i => u[i]?.getD 0) (lpVec p n fun i => v[i]?.getD 0) := by
    intro n hn
    have hx : ∀ i : Fin n, ‖(List.zipWith (· - ·) u v)[(i : Nat)]?.getD 0‖ = dist (u[(i : Nat)]?.getD 0) (v[(i : Nat)]?.getD 0) := by
      intro i
      have h1 : (i : Nat) < u.length := by have := i.2; omega
      have h2 : (i : Nat) < v.length := by have := i.2; omega
      rw [List.getElem?_zipWith, List.getElem?_eq_getElem h1, List.getElem?_eq_getElem h2]
      rfl
    by_cases ht : p = ⊤
    · subst ht
      rw [PiLp.norm_eq_ciSup, PiLp.dist_eq_iSup]
      exact congrArg _ (funext hx)
    · have hpos : 0 < p.toReal := ENNReal.toReal_pos (ne_of_gt hp) ht
      rw [PiLp.norm_eq_sum hpos, PiLp.dist_eq_sum hpos]
      congr 1
      exact Finset.sum_congr rfl fun i _ => congrArg (· ^ p.toReal) (hx i)
  rw [key _ hl, hl]

theorem lpDist_pseudo (p : ENNReal) (hp : 1 ≤ p) (n : Nat) : PseudometricOn {l : List ℝ | l.length = n} (lpDist p) := by
  have : Fact (1 ≤ p) := ⟨hp⟩
  constructor
  · intro x _ y _; exact dist_nonneg
  · intro x _; exact dist_self _
  · intro x hx y hy
    unfold lpDist
    have : x.length = y.length := hx.trans hy.symm
    rw [dist_comm, this]
  · intro x hx y hy z hz
    unfold lpDist
    have h1 : x.length = y.length := hx.trans hy.symm
    rw [← h1]
    exact dist_triangle _ _ _

theorem PseudometricOn.comap {α β : Type} {S : Set β} {d : β → β → ℝ} (h : PseudometricOn S d) (f : α → β) (T : Set α) (hf : ∀ x ∈ T, f x ∈ S) (c : ℝ) (hc : 0 ≤ c) :
    PseudometricOn T fun x y => d (f x) (f y) * c := by
  constructor
  · intro x hx y hy; exact mul_nonneg (h.nonneg _ (hf x hx) _ (hf y hy)) hc
  · intro x hx; rw [h.zero _ (hf x hx), zero_mul]
  · intro x hx y hy; rw [h.symm _ (hf x hx) _ (hf y hy)]
  · intro x hx y hy z hz
    rw [← add_mul]
    exact mul_le_mul_of_nonneg_right (h.triangle _ (hf x hx) _ (hf y hy) _ (hf z hz)) hc

theorem pNorm_zeros (p : ENNReal) (hp : 0 < p) (v : List ℝ) (n : Nat) : pNorm p (v ++ List.replicate n 0) = pNorm p v := by
  unfold pNorm
  split
  · have : ∀ c, (List.map (fun x => |x|) (v ++ List.replicate n 0)).foldl max 0 ≤ c ↔ (List.map (fun x => |x|) v).foldl max 0 ≤ c := by
      intro c
      rw [foldl_max_iSup, foldl_max_iSup]
      simp only [List.map_append, List.mem_append, List.map_replicate, abs_zero, List.mem_replicate]
      constructor
      · rintro ⟨h0, h⟩; exact ⟨h0, fun x hx => h x (Or.inl hx)⟩
      · rintro ⟨h0, h⟩
        refine ⟨h0, ?_⟩
        rintro x (hx | ⟨-, rfl⟩)
        · exact h x hx
        · exact h0
    exact le_antisymm ((this _).mpr le_rfl) ((this _).mp le_rfl)
  · rename_i h
    have hpos : 0 < p.toReal := ENNReal.toReal_pos (ne_of_gt hp) h
    rw [List.map_append, List.sum_append, List.map_replicate, abs_zero, Real.zero_rpow (ne_of_gt hpos)]
    simp

theorem lpNorm_smul (p : ENNReal) (hp : 0 < p) (c : ℝ) (v : List ℝ) : lpNorm p (v.map fun x => c * x) = |c| * lpNorm p v := by
  rw [← pNorm_eq p hp, ← pNorm_eq p hp]
  unfold pNorm
  split
  · rw [List.map_map]
    have : ∀ (l : List ℝ) (a : ℝ), (l.map ((fun x => |x|) ∘ fun x => c * x)).foldl max (|c| * a) = |c| * (l.map fun x => |x|).foldl max a := by
      intro l
      induction l with
      | nil => intro a; rfl
      | cons b t ih =>
        intro a
        simp only [List.map_cons, List.foldl_cons, Function.comp]
        rw [abs_mul, ← mul_max_of_nonneg _ _ (abs_nonneg c)]
        exact ih _
    have := this v 0
    rwa [mul_zero] at this
  · rename_i h
    have hpos : 0 < p.toReal := ENNReal.toReal_pos (ne_of_gt hp) h
    rw [List.map_map]
    have : v.map ((fun x => |x| ^ p.toReal) ∘ fun x => c * x) = (v.map fun x => |x| ^ p.toReal).map fun x => |c| ^ p.toReal * x := by
      rw [List.map_map]
      apply List.map_congr_left
      intro x _
      simp only [Function.comp]
      rw [abs_mul, Real.mul_rpow (abs_nonneg _) (abs_nonneg _)]
    have hs : ∀ (l : List ℝ) (a : ℝ), (l.map fun x => a * x).sum = a * l.sum := by
      intro l a
      induction l with
      | nil => simp
      | cons b t ih => simp only [List.map_cons, List.sum_cons, ih]; ring
    have hnn : 0 ≤ (v.map fun x => |x| ^ p.toReal).sum := by
      apply List.sum_nonneg
      simp only [List.mem_map, forall_exists_index, and_imp]
      rintro _ x _ rfl
      positivity
    rw [this, hs, Real.mul_rpow (by positivity) hnn, ← Real.rpow_mul (abs_nonneg _), mul_one_div_cancel (ne_of_gt hpos), Real.rpow_one]

/-- The norm is monotone on vectors of non-negative numbers. -/
theorem lpNorm_mono (p : ENNReal) (hp : 0 < p) {u v : List ℝ} (h : List.Forall₂ (fun x y => 0 ≤ x ∧ x ≤ y) u v) : lpNorm p u ≤ lpNorm p v := by
  rw [← pNorm_eq p hp, ← pNorm_eq p hp]
  unfold pNorm
  split
  · rw [foldl_max_iSup]
    have hv := (foldl_max_iSup (v.map fun x => |x|) 0 _).mp le_rfl
    refine ⟨hv.1, ?_⟩
    intro x hx
    rw [List.mem_map] at hx
    obtain ⟨a, ha, rfl⟩ := hx
    obtain ⟨i, hi, rfl⟩ := List.getElem_of_mem ha
    have hl := h.length_eq
    have := (List.forall₂_iff_get.mp h).2 i hi (by omega)
    simp only [List.get_eq_getElem] at this
    rw [abs_of_nonneg this.1]
    refine le_trans this.2 (le_trans (le_abs_self _) (hv.2 _ (List.mem_map_of_mem (List.getElem_mem (by omega)))))
  · rename_i ht
    have hpos : 0 < p.toReal := ENNReal.toReal_pos (ne_of_gt hp) ht
    have : ∀ {u v : List ℝ}, List.Forall₂ (fun x y => 0 ≤ x ∧ x ≤ y) u v → (u.map fun x => |x| ^ p.toReal).sum ≤ (v.map fun x => |x| ^ p.toReal).sum := by
      intro u v h
      induction h with
      | nil => exact le_rfl
      | cons hxy _ ih =>
        simp only [List.map_cons, List.sum_cons]
        refine add_le_add (Real.rpow_le_rpow (abs_nonneg _) ?_ hpos.le) ih
        rw [abs_of_nonneg hxy.1, abs_of_nonneg (hxy.1.trans hxy.2)]
        exact hxy.2
    refine Real.rpow_le_rpow ?_ (this h) (by positivity)
    apply List.sum_nonneg
    simp only [List.mem_map, forall_exists_index, and_imp]
    rintro _ x _ rfl
    positivity

theorem lpNorm_add_le (p : ENNReal) (hp : 1 ≤ p) {α : Type} (l : List α) (f g : α → ℝ) : lpNorm p (l.map fun x => f x + g x) ≤ lpNorm p (l.map f) + lpNorm p (l.map g) := by
  have : Fact (1 ≤ p) := ⟨hp⟩
  unfold lpNorm
  have key : ∀ n, n = l.length → ‖lpVec p n fun i => (l.map fun x => f x + g x)[i]?.getD 0‖ ≤
      ‖lpVec p n fun i => (l.map f)[i]?.getD 0‖ + ‖lpVec p n fun i => (l.map g)[i]?.getD 0‖ := by
    intro n hn
    refine le_trans (le_of_eq ?_) (norm_add_le _ _)
    congr 1
    ext i
    have : (i : Nat) < l.length := by have := i.2; omega
    simp [lpVec, List.getElem?_eq_getElem this]
  rw [List.length_map, List.length_map, List.length_map]
  exact key _ rfl

end Gtda.Diagrams
