import Verif.Model.Silhouette
import Verif.Props.Raster
import Mathlib.Analysis.SpecialFunctions.Pow.Real

set_option autoImplicit false
set_option linter.unusedSectionVars false

/-!
# C29: silhouettes
-/

namespace Gtda.Props
open Gtda.Py Gtda.Parallel Gtda.Diagrams

variable {K Q : Type} [Field K] [LinearOrder K] [IsStrictOrderedRing K]

/-- What the power function has to satisfy; `x ↦ x ^ p` does for every real `p > 0`. -/
structure PowLike (pw : K → K) : Prop where
  zero : pw 0 = 0
  pos : ∀ x, 0 < x → 0 < pw x
  mul : ∀ x y, 0 ≤ x → 0 ≤ y → pw (x * y) = pw x * pw y

/-- The average of the tent functions at `s` weighted by the lifetimes raised to the power (`0` if all weights are `0`). -/
def weightedTents (pw : K → K) (D : List (Pt K Q)) (s : K) : K :=
  (D.map fun p => pw (p.d - p.b) * tent p.b p.d s).sum / (D.map fun p => pw (p.d - p.b)).sum

theorem sum_map_mul_right' {α : Type} (l : List α) (f : α → K) (c : K) : (l.map fun x => f x * c).sum = (l.map f).sum * c := by
  induction l with
  | nil => simp
  | cons a t ih => simp [ih, add_mul]

theorem PowLike.nonneg {pw : K → K} (h : PowLike pw) (x : K) (hx : 0 ≤ x) : 0 ≤ pw x := by
  rcases eq_or_lt_of_le hx with e | e
  · rw [← e, h.zero]
  · exact le_of_lt (h.pos x e)

theorem sum_nonneg_map {α : Type} (l : List α) (f : α → K) (h : ∀ x ∈ l, 0 ≤ f x) : 0 ≤ (l.map f).sum := by
  apply List.sum_nonneg
  intro y hy
  rw [List.mem_map] at hy
  obtain ⟨x, hx, rfl⟩ := hy
  exact h x hx

theorem weights_pos {pw : K → K} (h : PowLike pw) (D : List (Pt K Q)) (hv : ∀ p ∈ D, p.b ≤ p.d) (ho : ∃ p ∈ D, p.b ≠ p.d) :
    0 < (D.map fun p => pw (p.d - p.b)).sum := by
  obtain ⟨p, hp, hne⟩ := ho
  have hp1 : 0 < pw (p.d - p.b) := h.pos _ (by have := lt_of_le_of_ne (hv p hp) hne; linarith)
  refine lt_of_lt_of_le hp1 (List.single_le_sum (l := D.map fun p => pw (p.d - p.b)) ?_ _ (List.mem_map_of_mem hp))
  intro y hy
  rw [List.mem_map] at hy
  obtain ⟨x, hx, rfl⟩ := hy
  exact h.nonneg _ (by have := hv x hx; linarith)

theorem zipWith_mul_map (ws : Pt K Q → K) (s : K) (D : List (Pt K Q)) :
    List.zipWith (· * ·) (D.map ws) (D.map (fiber s)) = D.map fun p => ws p * tent p.b p.d s := by
  rw [List.zipWith_map, List.zipWith_self]
  apply List.map_congr_left
  intro p _
  rw [fiber_eq]

theorem silhouetteOne_eq {pw : K → K} (h : PowLike pw) (big : Bool) (sampling : List K) (D : List (Pt K Q)) (hv : ∀ p ∈ D, p.b ≤ p.d)
    (ho : big = true → ∃ p ∈ D, p.b ≠ p.d) :
    silhouetteOne pw big sampling D = .ok (sampling.map fun s => some (weightedTents pw D s)) := by
  have hval : ∀ (c : K), c ≠ 0 → silhouetteValues sampling D (some (D.map fun p => pw (p.d - p.b) * c)) = sampling.map fun s => some (weightedTents pw D s) := by
    intro c hc
    unfold silhouetteValues
    dsimp only
    apply List.map_congr_left
    intro s _
    rw [zipWith_mul_map (fun p => pw (p.d - p.b) * c) s D]
    unfold weightedTents
    rw [sum_map_mul_right' D (fun p => pw (p.d - p.b)) c]
    have e : (D.map fun p => pw (p.d - p.b) * c * tent p.b p.d s) = D.map fun p => (pw (p.d - p.b) * tent p.b p.d s) * c := by
      apply List.map_congr_left
      intro p _
      ring
    rw [e, sum_map_mul_right' D (fun p => pw (p.d - p.b) * tent p.b p.d s) c]
    congr 1
    by_cases h0 : (D.map fun p => pw (p.d - p.b)).sum = 0
    · simp [h0]
    · rw [if_neg (mul_ne_zero h0 hc), mul_div_mul_right _ _ hc]
  unfold silhouetteOne silhouetteWeights
  dsimp only
  cases big with
  | false =>
    simp only [Bool.false_eq_true, if_false, ok_bind]
    rw [← hval 1 one_ne_zero]
    simp only [mul_one, List.map_map]
    rfl
  | true =>
    obtain ⟨p, hp, hne⟩ := ho rfl
    obtain ⟨m, hm, hm'⟩ := npMax_spec (D.map fun p => p.d - p.b) (by
      intro e
      rw [List.map_eq_nil_iff] at e
      rw [e] at hp
      simp at hp)
    have hmpos : 0 < m := by
      have h1 : 0 < p.d - p.b := by have := lt_of_le_of_ne (hv p hp) hne; linarith
      exact lt_of_lt_of_le h1 (hm'.2 (by simp only [Set.mem_ofPred_eq]; exact List.mem_map_of_mem (f := fun p : Pt K Q => p.d - p.b) hp))
    simp only [if_true]
    rw [hm]
    simp only [ok_bind]
    rw [if_neg (ne_of_gt hmpos), ← hval (pw m⁻¹) (ne_of_gt (h.pos _ (inv_pos.mpr hmpos)))]
    congr 3
    rw [List.map_map]
    apply List.map_congr_left
    intro x hx
    simp only [Function.comp]
    rw [div_eq_mul_inv, h.mul _ _ (by have := hv x hx; linarith) (le_of_lt (inv_pos.mpr hmpos))]

theorem sum_filter_zero {α : Type} (l : List α) (f : α → K) (P : α → Bool) (h : ∀ x ∈ l, P x = false → f x = 0) :
    (l.map f).sum = ((l.filter P).map f).sum := by
  induction l with
  | nil => rfl
  | cons a t ih =>
    rw [List.map_cons, List.sum_cons, List.filter_cons, ih fun x hx => h x (List.mem_cons_of_mem _ hx)]
    cases ha : P a with
    | true => simp
    | false => simp [h a List.mem_cons_self ha]

theorem weightedTents_same {pw : K → K} (h : PowLike pw) (D D' : List (Pt K Q)) (hD : SameFeatures D D') (s : K) : weightedTents pw D s = weightedTents pw D' s := by
  have key : ∀ D : List (Pt K Q), weightedTents pw D s = weightedTents pw (offDiag D) s := by
    intro D
    unfold weightedTents offDiag
    rw [sum_filter_zero D (fun p => pw (p.d - p.b) * tent p.b p.d s) (fun p => decide (p.b ≠ p.d)), sum_filter_zero D (fun p => pw (p.d - p.b)) (fun p => decide (p.b ≠ p.d))]
    · intro p _ hp
      have : p.b = p.d := by simpa using hp
      rw [this, sub_self, h.zero]
    · intro p _ hp
      have : p.b = p.d := by simpa using hp
      rw [this, sub_self, h.zero, zero_mul]
  rw [key D, key D']
  unfold weightedTents
  rw [(List.Perm.map _ hD).sum_eq, (List.Perm.map _ hD).sum_eq]

theorem weightedTents_bounds {pw : K → K} (h : PowLike pw) (D : List (Pt K Q)) (hv : ∀ p ∈ D, p.b ≤ p.d) (ho : ∃ p ∈ D, p.b ≠ p.d) (s M : K)
    (hM : ∀ p ∈ D, tent p.b p.d s ≤ M) : 0 ≤ weightedTents pw D s ∧ weightedTents pw D s ≤ M := by
  have hpos := weights_pos h D hv ho
  have hw : ∀ p ∈ D, 0 ≤ pw (p.d - p.b) := fun p hp => h.nonneg _ (by have := hv p hp; linarith)
  unfold weightedTents
  constructor
  · apply div_nonneg _ (le_of_lt hpos)
    exact sum_nonneg_map D _ fun p hp => mul_nonneg (hw p hp) (le_max_left _ _)
  · rw [div_le_iff₀ hpos, mul_comm M, ← sum_map_mul_right']
    clear hpos ho hv
    induction D with
    | nil => simp
    | cons a t ih =>
      rw [List.map_cons, List.map_cons, List.sum_cons, List.sum_cons]
      exact add_le_add (mul_le_mul_of_nonneg_left (hM a List.mem_cons_self) (hw a List.mem_cons_self))
        (ih (fun p hp => hM p (List.mem_cons_of_mem _ hp)) (fun p hp => hw p (List.mem_cons_of_mem _ hp)))

/-- Real powers. -/
theorem powLike_rpow (power : ℝ) (hp : 0 < power) : PowLike fun x : ℝ => x ^ power :=
  ⟨Real.zero_rpow (ne_of_gt hp), fun _ hx => Real.rpow_pos_of_pos hx power, fun _ _ hx hy => Real.mul_rpow hx hy⟩

section
variable [DecidableEq Q]

/-- `Silhouette.transform` with real power `power`. -/
noncomputable def silhouettePow (power : ℝ) (dims : List Q) (sampling : Q → List ℝ) (nJobs : Nat) (X : List (List (Pt ℝ Q))) :
    PyM (List (List (List (Option ℝ)))) :=
  silhouetteTransform (fun x => x ^ power) (decide (8 < power)) dims sampling nJobs X

theorem silhouetteTransform_eq {pw : K → K} (h : PowLike pw) (big : Bool) (dims : List Q) (sampling : Q → List K) (nJobs : Nat) (X : List (List (Pt K Q)))
    (hn : 1 ≤ nJobs) (hd : dims ≠ []) (hX : X ≠ []) (hE : ∀ q ∈ dims, EqualCounts X q) (hv : ∀ D ∈ X, ∀ p ∈ D, p.b ≤ p.d)
    (ho : big = true → ∀ q ∈ dims, ∀ D ∈ X, ∃ p ∈ D, p.q = q ∧ p.b ≠ p.d) :
    silhouetteTransform pw big dims sampling nJobs X =
      .ok (X.map fun D => dims.map fun q => (sampling q).map fun s => some (weightedTents pw (pointsIn D q) s)) := by
  unfold silhouetteTransform
  have hmem : ∀ (D : List (Pt K Q)) q p, p ∈ pointsIn D q ↔ p ∈ D ∧ p.q = q := by
    intro D q p; simp [pointsIn]
  apply perDim_eq _ (fun q D => (sampling q).map fun s => some (weightedTents pw D s)) dims nJobs hn hd X hX hE
  intro q hq Y _ hsub
  rw [mapM_ok (g := fun D => (sampling q).map fun s => some (weightedTents pw D s))]
  · rw [List.map_map]; rfl
  · intro D hD
    rw [List.mem_map] at hD
    obtain ⟨D, hD, rfl⟩ := hD
    apply silhouetteOne_eq h
    · intro p hp
      exact hv D (hsub D hD) p ((hmem D q p).mp hp).1
    · intro hb
      obtain ⟨p, hp, hpq, hne⟩ := ho hb q hq D (hsub D hD)
      exact ⟨p, (hmem D q p).mpr ⟨hp, hpq⟩, hne⟩

/-- **C29.** `Silhouette.transform`, for every power `> 0` (below or above the threshold 8 for internal rescaling), number of jobs, sampling and collection of diagrams with
an off-diagonal point in every diagram and homology dimension: the entry for diagram `i`, dimension `q` and sampled value `s` is the average of the tent
functions at `s` weighted by the lifetimes to the given power; it lies between `0` and the largest tent value. -/
theorem C29_weighted_average (power : ℝ) (hp : 0 < power) (dims : List Q) (sampling : Q → List ℝ) (nJobs : Nat) (X : List (List (Pt ℝ Q)))
    (hn : 1 ≤ nJobs) (hd : dims ≠ []) (hX : X ≠ []) (hE : ∀ q ∈ dims, EqualCounts X q) (hv : ∀ D ∈ X, ∀ p ∈ D, p.b ≤ p.d)
    (ho : ∀ q ∈ dims, ∀ D ∈ X, ∃ p ∈ D, p.q = q ∧ p.b ≠ p.d) :
    ∃ R, silhouettePow power dims sampling nJobs X = .ok R ∧
      ∀ (i j t : Nat) D q s, X[i]? = some D → dims[j]? = some q → (sampling q)[t]? = some s →
        0 < ((pointsIn D q).map fun p => (p.d - p.b) ^ power).sum ∧
        ∃ v, entry3 R i j t = some (some v) ∧
          v = ((pointsIn D q).map fun p => (p.d - p.b) ^ power * tent p.b p.d s).sum / ((pointsIn D q).map fun p => (p.d - p.b) ^ power).sum ∧
          0 ≤ v ∧ ∃ p ∈ pointsIn D q, v ≤ tent p.b p.d s := by
  have hpl := powLike_rpow power hp
  have hmem : ∀ (D : List (Pt ℝ Q)) q p, p ∈ pointsIn D q ↔ p ∈ D ∧ p.q = q := by
    intro D q p; simp [pointsIn]
  refine ⟨_, silhouetteTransform_eq hpl _ dims sampling nJobs X hn hd hX hE hv (fun _ => ho), ?_⟩
  intro i j t D q s h1 h2 h3
  have hDX := List.mem_of_getElem? h1
  have hv' : ∀ p ∈ pointsIn D q, p.b ≤ p.d := fun p hp => hv D hDX p ((hmem D q p).mp hp).1
  obtain ⟨p0, hp0, hq0, hne0⟩ := ho q (List.mem_of_getElem? h2) D hDX
  have ho' : ∃ p ∈ pointsIn D q, p.b ≠ p.d := ⟨p0, (hmem D q p0).mpr ⟨hp0, hq0⟩, hne0⟩
  refine ⟨weights_pos hpl _ hv' ho', _, ?_, rfl, ?_, ?_⟩
  · simp only [entry3, List.getElem?_map, h1, h2, h3, Option.map_some, Option.bind_eq_bind, Option.bind_some]
    rfl
  · exact (weightedTents_bounds hpl _ hv' ho' s _ (fun p hp => (npMax_spec ((pointsIn D q).map fun p => tent p.b p.d s)
      (by intro e; rw [List.map_eq_nil_iff] at e; obtain ⟨p, hp, -⟩ := ho'; rw [e] at hp; simp at hp)).choose_spec.2.2
      (by simp only [Set.mem_ofPred_eq]; exact List.mem_map_of_mem (f := fun p : Pt ℝ Q => tent p.b p.d s) hp))).1
  · obtain ⟨M, -, hM⟩ := npMax_spec ((pointsIn D q).map fun p => tent p.b p.d s)
      (by intro e; rw [List.map_eq_nil_iff] at e; obtain ⟨p, hp, -⟩ := ho'; rw [e] at hp; simp at hp)
    have hM1 := hM.1
    simp only [Set.mem_ofPred_eq, List.mem_map] at hM1
    obtain ⟨p, hp, he⟩ := hM1
    refine ⟨p, hp, ?_⟩
    rw [he]
    exact (weightedTents_bounds hpl _ hv' ho' s M (fun p hp => hM.2
      (by simp only [Set.mem_ofPred_eq]; exact List.mem_map_of_mem (f := fun p : Pt ℝ Q => tent p.b p.d s) hp))).2

/-- **C29.** Reordering points and adding or removing diagonal points does not change silhouettes, if the power is at most 8 or every diagram has an off-diagonal point
in every homology dimension. -/
theorem C29_order_padding (power : ℝ) (hp : 0 < power) (dims : List Q) (sampling : Q → List ℝ) (nJobs nJobs' : Nat) (X X' : List (List (Pt ℝ Q)))
    (hn : 1 ≤ nJobs) (hn' : 1 ≤ nJobs') (hd : dims ≠ []) (hX : X ≠ []) (hE : ∀ q ∈ dims, EqualCounts X q) (hE' : ∀ q ∈ dims, EqualCounts X' q)
    (hv : ∀ D ∈ X, ∀ p ∈ D, p.b ≤ p.d) (hv' : ∀ D ∈ X', ∀ p ∈ D, p.b ≤ p.d)
    (ho : 8 < power → ∀ q ∈ dims, ∀ D ∈ X, ∃ p ∈ D, p.q = q ∧ p.b ≠ p.d) (h : List.Forall₂ SameFeatures X X') :
    ∃ R, silhouettePow power dims sampling nJobs X = .ok R ∧ silhouettePow power dims sampling nJobs' X' = .ok R := by
  have hX' : X' ≠ [] := by rintro rfl; exact hX (List.forall₂_nil_right_iff.mp h)
  have hpl := powLike_rpow power hp
  have ho' : 8 < power → ∀ q ∈ dims, ∀ D ∈ X', ∃ p ∈ D, p.q = q ∧ p.b ≠ p.d := by
    intro h8 q hq D' hD'
    obtain ⟨i, hi⟩ := List.mem_iff_getElem?.mp hD'
    obtain ⟨D, hD, hs⟩ : ∃ D ∈ X, SameFeatures D D' := by
      have hl := h.length_eq
      have hlt : i < X.length := by rw [hl]; exact (List.getElem?_eq_some_iff.mp hi).1
      refine ⟨X[i], List.getElem_mem hlt, ?_⟩
      have := (List.forall₂_iff_get.mp h).2 i hlt (by omega)
      obtain ⟨h1, h2⟩ := List.getElem?_eq_some_iff.mp hi
      simp only [List.get_eq_getElem] at this
      rw [h2] at this
      exact this
    obtain ⟨p, hp, hpq, hne⟩ := ho h8 q hq D hD
    have : p ∈ offDiag D' := List.Perm.mem_iff hs |>.mp (by simp [offDiag, hp, hne])
    rw [offDiag, List.mem_filter] at this
    exact ⟨p, this.1, hpq, hne⟩
  refine ⟨_, silhouetteTransform_eq hpl _ dims sampling nJobs X hn hd hX hE hv (fun hb => ho (by simpa using hb)), ?_⟩
  unfold silhouettePow
  rw [silhouetteTransform_eq hpl _ dims sampling nJobs' X' hn' hd hX' hE' hv' (fun hb => ho' (by simpa using hb))]
  congr 1
  clear hE hE' hX hX' hv hv' ho ho'
  induction h with
  | nil => rfl
  | cons h _ ih =>
    rw [List.map_cons, List.map_cons, ih]
    congr 1
    apply List.map_congr_left
    intro q _
    apply List.map_congr_left
    intro s _
    rw [weightedTents_same hpl _ _ (pointsIn_perm h q)]

/-- **C29**, partial: with power at most 8, a diagram with only diagonal points in a dimension gets the silhouette `0` there. Missing: powers above 8, where the claim is false
(`C29_refuted_trivial`). -/
theorem C29_trivial_partial (power : ℝ) (hp : 0 < power) (h8 : power ≤ 8) (dims : List Q) (sampling : Q → List ℝ) (nJobs : Nat) (X : List (List (Pt ℝ Q)))
    (hn : 1 ≤ nJobs) (hd : dims ≠ []) (hX : X ≠ []) (hE : ∀ q ∈ dims, EqualCounts X q) (hv : ∀ D ∈ X, ∀ p ∈ D, p.b ≤ p.d) :
    ∃ R, silhouettePow power dims sampling nJobs X = .ok R ∧
      ∀ (i j t : Nat) D q s, X[i]? = some D → dims[j]? = some q → (sampling q)[t]? = some s → (∀ p ∈ D, p.q = q → p.b = p.d) →
        entry3 R i j t = some (some 0) := by
  refine ⟨_, silhouetteTransform_eq (powLike_rpow power hp) _ dims sampling nJobs X hn hd hX hE hv (fun hb => absurd h8 (by simpa using hb)), ?_⟩
  intro i j t D q s h1 h2 h3 hall
  simp only [entry3, List.getElem?_map, h1, h2, h3, Option.map_some, Option.bind_eq_bind, Option.bind_some]
  have : SameFeatures (pointsIn D q) [] := by
    unfold SameFeatures
    have : offDiag (pointsIn D q) = [] := by
      unfold offDiag
      rw [List.filter_eq_nil_iff]
      intro p hp
      rw [pointsIn, List.mem_filter] at hp
      simp [hall p hp.1 (by simpa using hp.2)]
    rw [this]
    exact List.Perm.refl _
  rw [weightedTents_same (powLike_rpow power hp) _ _ this]
  simp [weightedTents]

end

/-- **C29** is false for powers above 8 on diagrams with only diagonal points: every value of the silhouette is NaN (whatever the sampling). -/
theorem C29_refuted_trivial (power : ℝ) (h8 : 8 < power) (sampling : List ℝ) (b : ℝ) :
    silhouettePow power [0] (fun _ => sampling) 1 [[⟨b, b, (0 : Nat)⟩]] = .ok [[sampling.map fun _ => none]] := by
  unfold silhouettePow silhouetteTransform
  rw [perDim_eq _ (fun _ D => if D = [⟨b, b, 0⟩] then sampling.map (fun _ => none) else []) [0] 1 (by simp) (by simp) _ (by simp)
    (by intro q _ D hD D' hD'; rw [List.mem_singleton] at hD hD'; rw [hD, hD'])]
  · simp [pointsIn]
  · intro q hq Y _ hsub
    rw [mapM_ok (g := fun D => if D = [⟨b, b, 0⟩] then sampling.map (fun _ => none) else [])]
    · rw [List.map_map]; rfl
    · intro D hD
      rw [List.mem_map] at hD
      obtain ⟨D, hD, rfl⟩ := hD
      rw [List.mem_singleton.mp (hsub D hD), List.mem_singleton.mp hq]
      simp [pointsIn, silhouetteOne, silhouetteWeights, npMax, h8, silhouetteValues]

example : silhouetteTransform (fun x : ℚ => x ^ 2) false [0, 1] (fun _ => [0, 1, 2]) 2 crvX =
    .ok [[[some 0, some (1/2), some (1/2)], [some 0, some 0, some 0]], [[some 0, some 0, some 0], [some 0, some 1, some 2]]] := by decide +kernel
example : silhouetteTransform (fun x : ℚ => x ^ 9) true [0] (fun _ => [0, 1, 2]) 1 crvX =
    .ok [[[some 0, some (1/2), some (1/2)]], [[some 0, some 0, some 0]]] := by decide +kernel
example : PowLike (fun x : ℚ => x ^ 9) := ⟨by norm_num, fun x hx => pow_pos hx 9, fun x y _ _ => mul_pow x y 9⟩

end Gtda.Props
