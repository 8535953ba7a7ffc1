import Verif.Lemmas.Entropy
import Verif.Props.Amplitudes
import Verif.Props.Diagrams

set_option autoImplicit false
set_option linter.unusedSectionVars false

/-!
# Properties of persistence entropies and of numbers of points (C37, C38, C81)
-/

namespace Gtda.Props
open Gtda.Py Gtda.Parallel Gtda.Diagrams

variable {K Q : Type} [DecidableEq Q]

/-! ### C37 -/

/-- The lifetimes of the off-diagonal points in dimension `q`. -/
noncomputable def lifetimesIn (D : List (Pt ℝ Q)) (q : Q) : List ℝ := (offDiag (pointsIn D q)).map fun p => p.d - p.b

/-- The lifetimes of the off-diagonal points in dimension `q`, divided by their sum. -/
noncomputable def relativeLifetimes (D : List (Pt ℝ Q)) (q : Q) : List ℝ := (lifetimesIn D q).map fun x => x / (lifetimesIn D q).sum

theorem lifetimesIn_eq (D : List (Pt ℝ Q)) (q : Q) : lifetimesIn D q = ((pointsIn D q).map fun p => p.d - p.b).filter fun x => decide (x ≠ 0) := by
  unfold lifetimesIn offDiag
  rw [List.filter_map]
  congr 1
  apply List.filter_congr
  intro p _
  simp [sub_eq_zero, eq_comm]

theorem lifetimesIn_pos (D : List (Pt ℝ Q)) (q : Q) (hv : ∀ p ∈ D, p.b ≤ p.d) : ∀ x ∈ lifetimesIn D q, 0 < x := by
  intro x hx
  unfold lifetimesIn offDiag at hx
  rw [List.mem_map] at hx
  obtain ⟨p, hp, rfl⟩ := hx
  rw [List.mem_filter] at hp
  have h1 := hv p ((mem_pointsIn D q p).mp hp.1).1
  have h2 : p.b ≠ p.d := by simpa using hp.2
  have := lt_of_le_of_ne h1 h2
  linarith

theorem lifetimesIn_ne_nil (D : List (Pt ℝ Q)) (q : Q) : lifetimesIn D q = [] ↔ TrivialIn D q := by
  rw [trivialIn_offDiag]
  unfold lifetimesIn
  simp

theorem lifetimes_sum (D : List (Pt ℝ Q)) (q : Q) : ((pointsIn D q).map fun p => p.d - p.b).sum = (lifetimesIn D q).sum := by
  rw [lifetimesIn_eq, sum_filter_ne_zero]

theorem entropy_points (D : List (Pt ℝ Q)) (q : Q) (hv : ∀ p ∈ D, p.b ≤ p.d) (hne : ¬ TrivialIn D q) :
    scipyEntropy2 ((pointsIn D q).map fun p => p.d - p.b) = some (shannon2 (relativeLifetimes D q)) := by
  have hnn : ∀ x ∈ (pointsIn D q).map (fun p => p.d - p.b), 0 ≤ x := by
    intro x hx
    rw [List.mem_map] at hx
    obtain ⟨p, hp, rfl⟩ := hx
    have := hv p ((mem_pointsIn D q p).mp hp).1
    linarith
  have hne' : lifetimesIn D q ≠ [] := fun h => hne ((lifetimesIn_ne_nil D q).mp h)
  have hs : ((pointsIn D q).map fun p => p.d - p.b).sum ≠ 0 := by
    rw [lifetimes_sum]
    intro h0
    obtain ⟨a, t, e⟩ := List.exists_cons_of_ne_nil hne'
    have h1 := lifetimesIn_pos D q hv
    have h2 := (sum_eq_zero_iff _ fun x hx => (h1 x hx).le).mp h0 a (by rw [e]; exact List.mem_cons_self)
    have := h1 a (by rw [e]; exact List.mem_cons_self)
    linarith
  rw [scipyEntropy2_eq _ hnn hs, lifetimes_sum]
  congr 1
  rw [shannon2_filter]
  unfold relativeLifetimes
  congr 1
  rw [List.filter_map, lifetimesIn_eq]
  congr 1
  apply List.filter_congr
  intro x _
  have : (((pointsIn D q).map fun p => p.d - p.b).filter fun x => decide (x ≠ 0)).sum ≠ 0 := by rwa [sum_filter_ne_zero]
  simp only [Function.comp_apply, ne_eq, div_eq_zero_iff, this, or_false]

theorem entropy_trivial (D : List (Pt ℝ Q)) (q : Q) (ht : TrivialIn D q) (hex : ∃ p ∈ D, p.q = q) :
    scipyEntropy2 ((pointsIn D q).map fun p => p.d - p.b) = none := by
  unfold scipyEntropy2
  have h1 : (pointsIn D q).map (fun p => p.d - p.b) ≠ [] := by
    obtain ⟨p, hp, hq⟩ := hex
    exact List.ne_nil_of_mem (List.mem_map_of_mem ((mem_pointsIn D q p).mpr ⟨hp, hq⟩))
  rw [if_neg h1, if_pos]
  rw [lifetimes_sum, (lifetimesIn_ne_nil D q).mpr ht]
  rfl

theorem entropyTransform_gives (normalize : Bool) (fill : Option ℝ) (fmax : ℝ) (dims : List Q) (hd : dims ≠ []) (S : Set (List (Pt ℝ Q))) :
    GivesAmplitudes (fun nJobs X => entropyTransform normalize fill fmax dims nJobs X) dims S fun q D => persistenceEntropyOne normalize fill fmax (pointsIn D q) := by
  apply givesAmplitudes_of _ (fun _ D => persistenceEntropyOne normalize fill fmax D) dims hd
  intro q hq Y _ _ _
  simp [Function.comp_def]

theorem relativeLifetimes_same (D D' : List (Pt ℝ Q)) (q : Q) (h : SameFeatures D D') : (relativeLifetimes D q).Perm (relativeLifetimes D' q) ∧ (lifetimesIn D q).sum = (lifetimesIn D' q).sum := by
  have h1 : (lifetimesIn D q).Perm (lifetimesIn D' q) := by
    unfold lifetimesIn
    exact (pointsIn_perm h q).map _
  refine ⟨?_, h1.sum_eq⟩
  unfold relativeLifetimes
  rw [h1.sum_eq]
  exact h1.map _

theorem trivialIn_same (D D' : List (Pt ℝ Q)) (q : Q) (h : SameFeatures D D') : TrivialIn D q ↔ TrivialIn D' q := by
  rw [trivialIn_offDiag, trivialIn_offDiag]
  have := pointsIn_perm h q
  unfold SameFeatures at this
  constructor
  · intro h'; rw [h'] at this; exact List.nil_perm.mp this
  · intro h'; rw [h'] at this; exact List.perm_nil.mp this

theorem lifetimesIn_scale (D : List (Pt ℝ Q)) (q : Q) (c : ℝ) (hc : 0 < c) : lifetimesIn (scaleBy c D) q = (lifetimesIn D q).map fun x => c * x := by
  rw [lifetimesIn_eq, lifetimesIn_eq, pointsIn_scaleBy]
  unfold scaleBy
  rw [List.filter_map, List.filter_map, List.filter_map, List.map_map, List.map_map]
  congr 1
  · funext p; simp [mul_sub]
  · apply List.filter_congr
    intro p _
    simp only [Function.comp_apply, ← mul_sub, ne_eq, mul_eq_zero, ne_of_gt hc, false_or]

theorem relativeLifetimes_scale (D : List (Pt ℝ Q)) (q : Q) (c : ℝ) (hc : 0 < c) : relativeLifetimes (scaleBy c D) q = relativeLifetimes D q := by
  unfold relativeLifetimes
  rw [lifetimesIn_scale D q c hc, List.sum_map_mul_left, List.map_map]
  simp only [List.map_id']
  apply List.map_congr_left
  intro x _
  simp only [Function.comp_apply]
  exact mul_div_mul_left _ _ (ne_of_gt hc)

/-- **C37.** The values which `PersistenceEntropy(normalize=False)` outputs, for every number of jobs, for diagrams whose points have birth ≤ death. -/
theorem C37_persistence_entropy (fill : Option ℝ) (fmax : ℝ) (dims : List Q) (hd : dims ≠ []) :
    ∃ α : Q → List (Pt ℝ Q) → Option EReal, GivesAmplitudes (fun nJobs X => entropyTransform false fill fmax dims nJobs X) dims {D | ∀ p ∈ D, p.b ≤ p.d} α ∧
      ∀ q ∈ dims, ∀ D : List (Pt ℝ Q), (∀ p ∈ D, p.b ≤ p.d) →
        -- a diagram with an off-diagonal point: Shannon entropy of the relative lifetimes, and its bounds
        (¬ TrivialIn D q → α q D = some ((shannon2 (relativeLifetimes D q) : ℝ) : EReal) ∧ 0 ≤ shannon2 (relativeLifetimes D q) ∧
          shannon2 (relativeLifetimes D q) ≤ Real.logb 2 (offDiag (pointsIn D q)).length) ∧
        -- a diagram with diagonal points only: `nan_fill_value`, or NaN if it is `None`
        (TrivialIn D q → (∃ p ∈ D, p.q = q) → α q D = fill.map fun (x : ℝ) => (x : EReal)) ∧
        -- invariance
        (∀ D' : List (Pt ℝ Q), (∀ p ∈ D', p.b ≤ p.d) → SameFeatures D D' → ¬ TrivialIn D q → α q D = α q D') ∧
        (∀ c : ℝ, 0 < c → (∃ p ∈ D, p.q = q) → α q (scaleBy c D) = α q D) := by
  have hval : ∀ D : List (Pt ℝ Q), ∀ q, (∀ p ∈ D, p.b ≤ p.d) → ¬ TrivialIn D q →
      persistenceEntropyOne false fill fmax (pointsIn D q) = some ((shannon2 (relativeLifetimes D q) : ℝ) : EReal) := by
    intro D q hv hne
    unfold persistenceEntropyOne
    simp only [entropy_points D q hv hne, Bool.false_eq_true, if_false, Option.map_some]
    cases fill with
    | none => rfl
    | some f => simp [nanToNumE]
  have htriv : ∀ D : List (Pt ℝ Q), ∀ q, TrivialIn D q → (∃ p ∈ D, p.q = q) → persistenceEntropyOne false fill fmax (pointsIn D q) = fill.map fun (x : ℝ) => (x : EReal) := by
    intro D q ht hex
    unfold persistenceEntropyOne
    simp only [entropy_trivial D q ht hex, Bool.false_eq_true, if_false, Option.map_none]
    cases fill <;> rfl
  refine ⟨_, entropyTransform_gives false fill fmax dims hd _, ?_⟩
  intro q hq D hv
  beta_reduce
  refine ⟨fun hne => ⟨hval D q hv hne, ?_⟩, htriv D q, ?_, ?_⟩
  · have h := shannon2_bounds (lifetimesIn D q) (lifetimesIn_pos D q hv) (fun h => hne ((lifetimesIn_ne_nil D q).mp h))
    have hl : (lifetimesIn D q).length = (offDiag (pointsIn D q)).length := by simp [lifetimesIn]
    rw [hl] at h
    exact h
  · intro D' hv' hs hne
    rw [hval D q hv hne, hval D' q hv' (fun h => hne ((trivialIn_same D D' q hs).mpr h)), shannon2_perm (relativeLifetimes_same D D' q hs).1]
  · intro c hc hex
    have hv' : ∀ p ∈ scaleBy c D, p.b ≤ p.d := by
      intro p hp
      unfold scaleBy at hp
      rw [List.mem_map] at hp
      obtain ⟨p, hp, rfl⟩ := hp
      exact mul_le_mul_of_nonneg_left (hv p hp) hc.le
    have hex' : ∃ p ∈ scaleBy c D, p.q = q := by
      obtain ⟨p, hp, e⟩ := hex
      exact ⟨_, List.mem_map_of_mem hp, e⟩
    have htt : TrivialIn (scaleBy c D) q ↔ TrivialIn D q := by
      rw [← lifetimesIn_ne_nil, ← lifetimesIn_ne_nil, lifetimesIn_scale D q c hc, List.map_eq_nil_iff]
    by_cases ht : TrivialIn D q
    · rw [htriv _ q (htt.mpr ht) hex', htriv _ q ht hex]
    · rw [hval _ q hv' (fun h => ht (htt.mp h)), hval D q hv ht, relativeLifetimes_scale D q c hc]

/-- **C37.** The upper bound is attained by diagrams whose lifetimes are all equal. -/
theorem C37_uniform (D : List (Pt ℝ Q)) (q : Q) (c : ℝ) (hc : 0 < c) (h : ∀ p ∈ offDiag (pointsIn D q), p.d - p.b = c) (hne : ¬ TrivialIn D q) :
    shannon2 (relativeLifetimes D q) = Real.logb 2 (offDiag (pointsIn D q)).length := by
  have e : lifetimesIn D q = List.replicate (offDiag (pointsIn D q)).length c := by
    apply List.eq_replicate_iff.mpr
    refine ⟨by simp [lifetimesIn], ?_⟩
    intro x hx
    unfold lifetimesIn at hx
    rw [List.mem_map] at hx
    obtain ⟨p, hp, rfl⟩ := hx
    exact h p hp
  have hn : (offDiag (pointsIn D q)).length ≠ 0 := by
    intro h0
    exact hne ((trivialIn_offDiag D q).mpr (List.length_eq_zero_iff.mp h0))
  unfold relativeLifetimes
  rw [e]
  unfold shannon2
  have hn' : ((offDiag (pointsIn D q)).length : ℝ) ≠ 0 := by exact_mod_cast hn
  simp only [List.sum_replicate, List.map_replicate, nsmul_eq_mul]
  have : c / (((offDiag (pointsIn D q)).length : ℝ) * c) = ((offDiag (pointsIn D q)).length : ℝ)⁻¹ := by
    field_simp
  rw [this, Real.logb_inv]
  field_simp

/-- **C81.** With `normalize=True` the output for a diagram with an off-diagonal point is its entropy divided by the base-2 logarithm of its total lifetime, if this total is not 1. -/
theorem C81_normalised_entropy (fill : Option ℝ) (fmax : ℝ) (dims : List Q) (hd : dims ≠ []) :
    ∃ α : Q → List (Pt ℝ Q) → Option EReal, GivesAmplitudes (fun nJobs X => entropyTransform true fill fmax dims nJobs X) dims {D | ∀ p ∈ D, p.b ≤ p.d} α ∧
      ∀ q ∈ dims, ∀ D : List (Pt ℝ Q), (∀ p ∈ D, p.b ≤ p.d) →
        (¬ TrivialIn D q → (lifetimesIn D q).sum ≠ 1 → α q D = some ((shannon2 (relativeLifetimes D q) / Real.logb 2 (lifetimesIn D q).sum : ℝ) : EReal)) ∧
        -- total lifetime 1: `0 / 0` for a single point, `x / 0` otherwise
        (¬ TrivialIn D q → (lifetimesIn D q).sum = 1 → shannon2 (relativeLifetimes D q) = 0 → α q D = fill.map fun (x : ℝ) => (x : EReal)) ∧
        (¬ TrivialIn D q → (lifetimesIn D q).sum = 1 → shannon2 (relativeLifetimes D q) ≠ 0 → α q D = some (if fill.isSome then (fmax : EReal) else ⊤)) ∧
        (TrivialIn D q → (∃ p ∈ D, p.q = q) → α q D = fill.map fun (x : ℝ) => (x : EReal)) ∧
        (∀ D' : List (Pt ℝ Q), (∀ p ∈ D', p.b ≤ p.d) → SameFeatures D D' → ¬ TrivialIn D q → α q D = α q D') := by
  refine ⟨_, entropyTransform_gives true fill fmax dims hd _, ?_⟩
  intro q hq D hv
  beta_reduce
  have hval : ∀ D : List (Pt ℝ Q), (∀ p ∈ D, p.b ≤ p.d) → ¬ TrivialIn D q → persistenceEntropyOne true fill fmax (pointsIn D q) =
      match fill with
      | none => npDivide (shannon2 (relativeLifetimes D q)) (Real.logb 2 (lifetimesIn D q).sum)
      | some f => nanToNumE f fmax (npDivide (shannon2 (relativeLifetimes D q)) (Real.logb 2 (lifetimesIn D q).sum)) := by
    intro D hv hne
    unfold persistenceEntropyOne
    simp only [entropy_points D q hv hne, if_true, lifetimes_sum, normalizeEntropy]
    cases fill <;> rfl
  have hpos : ∀ D : List (Pt ℝ Q), (∀ p ∈ D, p.b ≤ p.d) → ¬ TrivialIn D q → 0 < (lifetimesIn D q).sum := by
    intro D hv hne
    have h1 := lifetimesIn_pos D q hv
    have hne' : lifetimesIn D q ≠ [] := fun h => hne ((lifetimesIn_ne_nil D q).mp h)
    obtain ⟨a, t, e⟩ := List.exists_cons_of_ne_nil hne'
    have h2 : a ∈ lifetimesIn D q := by rw [e]; exact List.mem_cons_self
    exact lt_of_lt_of_le (h1 a h2) (le_sum_of_mem _ (fun x hx => (h1 x hx).le) a h2)
  refine ⟨?_, ?_, ?_, ?_, ?_⟩
  · intro hne h1
    have hlog : Real.logb 2 (lifetimesIn D q).sum ≠ 0 := by
      have := hpos D hv hne
      unfold Real.logb
      refine div_ne_zero (Real.log_ne_zero_of_pos_of_ne_one this h1) (ne_of_gt (Real.log_pos (by norm_num)))
    rw [hval D hv hne]
    cases fill with
    | none => simp [npDivide, hlog]
    | some f => simp [npDivide, hlog, nanToNumE]
  · intro hne h1 h0
    rw [hval D hv hne, h1, h0]
    cases fill <;> simp [npDivide, nanToNumE]
  · intro hne h1 h0
    have hnn := (shannon2_bounds (lifetimesIn D q) (lifetimesIn_pos D q hv) (fun h => hne ((lifetimesIn_ne_nil D q).mp h))).1
    have : 0 < shannon2 (relativeLifetimes D q) := lt_of_le_of_ne hnn (Ne.symm h0)
    rw [hval D hv hne, h1]
    cases fill <;> simp [npDivide, nanToNumE, this, h0]
  · intro ht hex
    unfold persistenceEntropyOne
    simp only [entropy_trivial D q ht hex, if_true, normalizeEntropy]
    cases fill <;> rfl
  · intro D' hv' hs hne
    have h := relativeLifetimes_same D D' q hs
    rw [hval D hv hne, hval D' hv' (fun h' => hne ((trivialIn_same D D' q hs).mpr h')), shannon2_perm h.1, h.2]

example : ¬ TrivialIn ([⟨0, 1, 0⟩, ⟨1, 3, 0⟩, ⟨5, 5, 0⟩] : List (Pt ℝ Nat)) 0 ∧ relativeLifetimes ([⟨0, 1, 0⟩, ⟨1, 3, 0⟩, ⟨5, 5, 0⟩] : List (Pt ℝ Nat)) 0 = [1 / 3, 2 / 3] := by
  refine ⟨fun h => ?_, ?_⟩
  · have := h ⟨0, 1, 0⟩ (by simp) rfl
    norm_num at this
  · norm_num [relativeLifetimes, lifetimesIn, offDiag, pointsIn]

/-! ### C38 -/

section
variable [Field K] [LinearOrder K] [IsStrictOrderedRing K]

theorem numberPoints_slice (X : List (List (Pt K Q))) (q : Q) (hX : X ≠ []) (hq : EqualCounts X q) {a b : Nat} {l : List (Nat × Nat)} (h : Contiguous a b l) (hb : b = X.length) :
    ∃ r, l.mapM (fun s => numberPointsTask X (q, s)) = .ok r ∧ r.flatten = (X.drop a).map fun D => (offDiag (pointsIn D q)).length := by
  have hnp : ∀ Y : List (List (Pt K Q)), numberPoints Y = Y.map fun D => (offDiag D).length := by
    intro Y
    unfold numberPoints offDiag
    apply List.map_congr_left
    intro D _
    congr 1
    apply List.filter_congr
    intro p _
    simp [sub_eq_zero, eq_comm]
  induction h with
  | nil a => subst hb; exact ⟨[], by simp⟩
  | @cons a m b l h1 h2 ih =>
    obtain ⟨r, hr, hr'⟩ := ih hb
    have hm := contiguous_le h2
    have htask : numberPointsTask X (q, (a, m)) = .ok (((X.drop a).take (m - a)).map fun D => (offDiag (pointsIn D q)).length) := by
      unfold numberPointsTask
      simp only
      rw [subdiagrams_single _ q hX hq, ok_bind, pySlice_block _ a m (by omega) (by simp; omega), hnp, ← List.map_drop, ← List.map_take, List.map_map]
      rfl
    refine ⟨(((X.drop a).take (m - a)).map fun D => (offDiag (pointsIn D q)).length) :: r, ?_, ?_⟩
    · rw [List.mapM_cons, htask, hr]
      rfl
    · rw [List.flatten_cons, hr', ← List.map_append]
      congr 1
      exact (drop_eq_take_append_drop X a m (by omega)).symm

theorem numberPointsTransform_eq (dims : List Q) (nJobs : Nat) (hn : 1 ≤ nJobs) (hd : dims ≠ []) (X : List (List (Pt K Q))) (hX : X ≠ []) (hE : ∀ q ∈ dims, EqualCounts X q) :
    numberPointsTransform dims nJobs X = .ok (X.map fun D => dims.map fun q => (offDiag (pointsIn D q)).length) := by
  have hparts : ∀ dims : List Q, (∀ q ∈ dims, EqualCounts X q) → ∃ r, (perDimTasks dims nJobs X.length).mapM (numberPointsTask X) = .ok r ∧ (dims ≠ [] → r ≠ []) ∧
      r.flatten = (dims.map fun q => X.map fun D => (offDiag (pointsIn D q)).length).flatten := by
    intro dims hE
    induction dims with
    | nil => exact ⟨[], rfl, fun h => absurd rfl h, rfl⟩
    | cons q t ih =>
      obtain ⟨r, hr, -, hr'⟩ := ih fun q hq => hE q (List.mem_cons_of_mem _ hq)
      obtain ⟨r0, h0, h0'⟩ := numberPoints_slice X q hX (hE q List.mem_cons_self) (C17_slices_partition X.length nJobs hn) rfl
      refine ⟨r0 ++ r, ?_, ?_, ?_⟩
      · unfold perDimTasks
        rw [List.flatMap_cons]
        refine mapM_append_ok ?_ hr
        rw [List.mapM_map]
        exact h0
      · rintro - h
        obtain ⟨h1, h2⟩ := List.append_eq_nil_iff.mp h
        rw [h1] at h0'
        simp only [List.flatten_nil, List.drop_zero] at h0'
        exact hX (List.map_eq_nil_iff.mp h0'.symm)
      · rw [List.flatten_append, h0', hr']
        rfl
  obtain ⟨r, hr, hne, hr'⟩ := hparts dims hE
  unfold numberPointsTransform
  rw [hr]
  simp only [ok_bind]
  have hc : concatAxis0 r = .ok r.flatten := by
    cases r with
    | nil => exact absurd rfl (hne hd)
    | cons a t => rfl
  rw [hc]
  simp only [ok_bind]
  have hre := reshape2_flatten (dims.map fun q => X.map fun D => (offDiag (pointsIn D q)).length) X.length (by
    intro l hl
    rw [List.mem_map] at hl
    obtain ⟨q, -, rfl⟩ := hl
    simp)
  rw [List.length_map] at hre
  rw [hr', hre]
  simp only [ok_bind]
  rw [transposeN_map]

/-- **C38.** `NumberOfPoints` outputs at `[i, k]` the number of points of diagram `i` in the `k`-th dimension with birth different from death, for every number of jobs; this number is zero exactly
if all points are diagonal and does not change when points are reordered and diagonal points added or removed. -/
theorem C38_number_of_points (dims : List Q) (hd : dims ≠ []) :
    GivesAmplitudes (fun nJobs (X : List (List (Pt K Q))) => numberPointsTransform dims nJobs X) dims Set.univ (fun q D => D.countP fun p => decide (p.q = q ∧ p.b ≠ p.d)) ∧
    (∀ (D : List (Pt K Q)) (q : Q), D.countP (fun p => decide (p.q = q ∧ p.b ≠ p.d)) = 0 ↔ TrivialIn D q) ∧
    (∀ (D D' : List (Pt K Q)) (q : Q), SameFeatures D D' → D.countP (fun p => decide (p.q = q ∧ p.b ≠ p.d)) = D'.countP fun p => decide (p.q = q ∧ p.b ≠ p.d)) := by
  have hc : ∀ (D : List (Pt K Q)) (q : Q), D.countP (fun p => decide (p.q = q ∧ p.b ≠ p.d)) = (offDiag (pointsIn D q)).length := by
    intro D q
    unfold offDiag pointsIn
    rw [List.filter_filter, ← List.countP_eq_length_filter]
    apply List.countP_congr
    intro p _
    simp [and_comm]
  refine ⟨?_, ?_, ?_⟩
  · intro nJobs X hn hX hE _
    refine ⟨_, numberPointsTransform_eq dims nJobs hn hd X hX hE, by simp, by simp, ?_⟩
    intro i k D q hi hk
    beta_reduce
    rw [hc]
    simp [entry2, hi, hk]
  · intro D q
    rw [hc, trivialIn_offDiag, List.length_eq_zero_iff]
  · intro D D' q h
    rw [hc, hc]
    exact (pointsIn_perm h q).length_eq

end

section
variable {K Q : Type} [Field K] [LinearOrder K] [IsStrictOrderedRing K] [LinearOrder Q]

/-- **C38.** Applied after `Filtering(epsilon)`, it counts the points with lifetime above `epsilon`. -/
theorem C38_after_filtering (fd : List Q) (e : K) (he : 0 ≤ e) (hfd : fd.Nodup) (hd : fd ≠ []) (nJobs : Nat) (hn : 1 ≤ nJobs) (X : List (List (Pt K Q))) (hX : X ≠ [])
    (h : ∀ q, q ∉ fd → EqualCounts X q) :
    ∃ R A, filterDiagrams X fd e = .ok R ∧ numberPointsTransform fd nJobs R = .ok A ∧
      ∀ (i k : Nat) D q, X[i]? = some D → fd[k]? = some q → entry2 A i k = some (D.countP fun p => decide (p.q = q ∧ e < p.d - p.b)) := by
  obtain ⟨R, hR, hl, hpts⟩ := C22_filtering X fd e hX hfd h
  have hRne : R ≠ [] := by
    intro h0
    rw [h0] at hl
    exact hX (List.length_eq_zero_iff.mp hl.symm)
  refine ⟨R, _, hR, numberPointsTransform_eq fd nJobs hn hd R hRne (fun q _ => C23_equal_counts X R fd e hX hfd h hR q), ?_⟩
  intro i k D q hi hk
  have hi' : i < R.length := by rw [hl]; exact (List.getElem?_eq_some_iff.mp hi).1
  have hRi := List.getElem?_eq_getElem hi'
  obtain ⟨pads, hp, hpad⟩ := (hpts i D R[i] hi hRi).1 q (List.mem_of_getElem? hk)
  have hlen : (offDiag (pointsIn R[i] q)).length = D.countP fun p => decide (p.q = q ∧ e < p.d - p.b) := by
    rw [hp]
    unfold offDiag longLived
    rw [List.filter_append, List.filter_filter, (List.filter_eq_nil_iff (l := pads)).mpr (by simpa using hpad), List.append_nil, ← List.countP_eq_length_filter]
    apply List.countP_congr
    intro p _
    simp only [ne_eq, decide_not, Bool.and_eq_true, Bool.not_eq_eq_eq_not, Bool.not_true, decide_eq_false_iff_not, decide_eq_true_eq]
    constructor
    · rintro ⟨-, h⟩; exact h
    · rintro ⟨h1, h2⟩
      refine ⟨fun hb => ?_, h1, h2⟩
      rw [hb] at h2
      linarith
  simp [entry2, hRi, hk, hlen]

end

example : numberPointsTransform [0, 1] 2 crvX = .ok [[2, 0], [1, 1]] := by decide +kernel

end Gtda.Props
