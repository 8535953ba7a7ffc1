import Verif.Props.Distances
import Verif.Props.Samplings
import Verif.Props.Curves
import Verif.Model.Scaler

set_option autoImplicit false
set_option linter.unusedSectionVars false

/-!
# Amplitudes (C36, C35) and the scale of `Scaler` (C26)
-/

namespace Gtda.Props
open Gtda.Py Gtda.Parallel Gtda.Diagrams

variable {K Q : Type} [DecidableEq Q]

/-- A diagram with births and deaths multiplied by `c`. -/
def scaleBy [Mul K] (c : K) (D : List (Pt K Q)) : List (Pt K Q) := D.map fun p => ⟨c * p.b, c * p.d, p.q⟩

/-- All points in dimension `q` are diagonal. -/
def TrivialIn (D : List (Pt K Q)) (q : Q) : Prop := ∀ p ∈ D, p.q = q → p.b = p.d

/-! ### Auxiliary results -/

theorem givesAmplitudes_of {R : Type} (amp : Q → List (List (Pt K Q)) → PyM (List R)) (α : Q → List (Pt K Q) → R) (dims : List Q) (hd : dims ≠ []) (S : Set (List (Pt K Q)))
    (h : ∀ q ∈ dims, ∀ Y : List (List (Pt K Q)), Y ≠ [] → (∀ D ∈ Y, D ∈ S) → EqualCounts Y q →
      amp q (Y.map fun D => pointsIn D q) = .ok (Y.map fun D => α q (pointsIn D q))) :
    GivesAmplitudes (fun nJobs X => parallelAmplitude amp dims nJobs X) dims S fun q D => α q (pointsIn D q) := by
  intro nJobs X hn hX hE hS
  refine ⟨_, perDim_eq amp α dims nJobs hn hd X hX hE ?_, by simp, by simp, ?_⟩
  · intro q hq Y hY hsub
    exact h q hq Y hY (fun D hD => hS D (hsub D hD)) (equalCounts_sub X Y q (hE q hq) hsub)
  · intro i k D q hi hk
    simp [entry2, List.getElem?_map, hi, hk]

theorem mem_pointsIn (D : List (Pt K Q)) (q : Q) (p : Pt K Q) : p ∈ pointsIn D q ↔ p ∈ D ∧ p.q = q := by simp [pointsIn]

theorem pointsIn_scaleBy [Mul K] (c : K) (D : List (Pt K Q)) (q : Q) : pointsIn (scaleBy c D) q = scaleBy c (pointsIn D q) := by
  unfold pointsIn scaleBy
  rw [List.filter_map]
  rfl

section
variable [Field K] [LinearOrder K] [IsStrictOrderedRing K]

theorem trivialIn_offDiag (D : List (Pt K Q)) (q : Q) : TrivialIn D q ↔ offDiag (pointsIn D q) = [] := by
  unfold offDiag TrivialIn
  rw [List.filter_eq_nil_iff]
  simp only [mem_pointsIn]
  constructor
  · intro h p hp; simp [h p hp.1 hp.2]
  · intro h p hp hq; simpa using h p ⟨hp, hq⟩

/-- The largest entry of `|half lifetimes|`, 0 for an empty diagram. -/
def bottleneckOne (D : List (Pt K Q)) : K := match npMax (D.map fun p => |(p.d - p.b) / 2|) with | .ok m => m | .error _ => 0

theorem bottleneckOne_spec (D : List (Pt K Q)) (h : D ≠ []) :
    npMax (D.map fun p => |(p.d - p.b) / 2|) = .ok (bottleneckOne D) ∧ IsGreatest {y | ∃ p ∈ D, y = |(p.d - p.b) / 2|} (bottleneckOne D) := by
  obtain ⟨m, hm, hg⟩ := npMax_spec (D.map fun p => |(p.d - p.b) / 2|) (by simpa using h)
  have : bottleneckOne D = m := by unfold bottleneckOne; rw [hm]
  rw [this]
  refine ⟨hm, ?_⟩
  have e : {y | y ∈ D.map fun p => |(p.d - p.b) / 2|} = {y | ∃ p ∈ D, y = |(p.d - p.b) / 2|} := by
    ext y
    simp only [List.mem_map, Set.mem_ofPred_eq]
    constructor
    · rintro ⟨p, hp, rfl⟩; exact ⟨p, hp, rfl⟩
    · rintro ⟨p, hp, rfl⟩; exact ⟨p, hp, rfl⟩
  rw [← e]
  exact hg

/-- **C36**, `metric="bottleneck"`. The amplitude in dimension `q` is half of the largest lifetime; it is non-negative, multiplied by `c` if all births and deaths are multiplied by
`c > 0`, unchanged by reordering points and adding or removing diagonal points, zero if all points are diagonal; entry `[i, k]` of the output belongs to diagram `i` and dimension `k`, for every
number of jobs. Diagrams have at least one point in each dimension. -/
theorem C36_bottleneck (dims : List Q) (hd : dims ≠ []) :
    ∃ α : Q → List (Pt K Q) → K,
      GivesAmplitudes (fun nJobs X => parallelAmplitude (fun _ => bottleneckAmplitudes) dims nJobs X) dims {D | ∀ q ∈ dims, ∃ p ∈ D, p.q = q} α ∧
      ∀ q ∈ dims, ∀ D : List (Pt K Q), (∃ p ∈ D, p.q = q) →
        ((∀ p ∈ D, p.b ≤ p.d) → IsGreatest {x | ∃ p ∈ D, p.q = q ∧ x = p.d - p.b} (2 * α q D)) ∧ 0 ≤ α q D ∧ (∀ c, 0 < c → α q (scaleBy c D) = c * α q D) ∧
        (∀ D', SameFeatures D D' → (∃ p ∈ D', p.q = q) → α q D' = α q D) ∧ (TrivialIn D q → α q D = 0) := by
  refine ⟨fun q D => bottleneckOne (pointsIn D q), ?_, ?_⟩
  · apply givesAmplitudes_of (fun _ => bottleneckAmplitudes) (fun _ D => bottleneckOne D) dims hd
    intro q hq Y _ hS _
    unfold bottleneckAmplitudes
    rw [mapM_ok (g := bottleneckOne)]
    · rw [List.map_map]; rfl
    · intro D hD
      rw [List.mem_map] at hD
      obtain ⟨D, hD, rfl⟩ := hD
      obtain ⟨p, hp, hpq⟩ := hS D hD q hq
      exact (bottleneckOne_spec _ (List.ne_nil_of_mem ((mem_pointsIn D q p).mpr ⟨hp, hpq⟩))).1
  · intro q hq D hD
    have hne : ∀ D : List (Pt K Q), (∃ p ∈ D, p.q = q) → pointsIn D q ≠ [] := by
      rintro D ⟨p, hp, hpq⟩
      exact List.ne_nil_of_mem ((mem_pointsIn D q p).mpr ⟨hp, hpq⟩)
    have hg := (bottleneckOne_spec _ (hne D hD)).2
    have hnn : ∀ D : List (Pt K Q), (∃ p ∈ D, p.q = q) → 0 ≤ bottleneckOne (pointsIn D q) := by
      intro D hD
      obtain ⟨p, _, hp⟩ := (bottleneckOne_spec _ (hne D hD)).2.1
      rw [hp]
      exact abs_nonneg _
    beta_reduce
    refine ⟨?_, hnn D hD, ?_, ?_, ?_⟩
    · intro hv
      have hpos : ∀ p ∈ D, |(p.d - p.b) / 2| = (p.d - p.b) / 2 := by
        intro p hp
        have := hv p hp
        exact abs_of_nonneg (by linarith)
      constructor
      · obtain ⟨p, hp, he⟩ := hg.1
        rw [mem_pointsIn] at hp
        refine ⟨p, hp.1, hp.2, ?_⟩
        rw [he, hpos p hp.1]
        ring
      · rintro x ⟨p, hp, hpq, rfl⟩
        have := hg.2 ⟨p, (mem_pointsIn D q p).mpr ⟨hp, hpq⟩, rfl⟩
        rw [hpos p hp] at this
        linarith
    · intro c hc
      have hg' := (bottleneckOne_spec (pointsIn (scaleBy c D) q) (by rw [pointsIn_scaleBy]; simpa [scaleBy] using hne D hD)).2
      rw [pointsIn_scaleBy] at hg' ⊢
      refine hg'.unique ?_
      have hcc : ∀ p : Pt K Q, |(c * p.d - c * p.b) / 2| = c * |(p.d - p.b) / 2| := by
        intro p
        rw [← mul_sub, mul_div_assoc, abs_mul, abs_of_pos hc]
      constructor
      · obtain ⟨p, hp, he⟩ := hg.1
        exact ⟨_, List.mem_map_of_mem hp, by rw [he, ← hcc]⟩
      · rintro x ⟨p, hp, rfl⟩
        unfold scaleBy at hp
        rw [List.mem_map] at hp
        obtain ⟨p, hp, rfl⟩ := hp
        simp only
        rw [hcc]
        exact mul_le_mul_of_nonneg_left (hg.2 ⟨p, hp, rfl⟩) hc.le
    · intro D' hDD' hD'
      have hg' := (bottleneckOne_spec _ (hne D' hD')).2
      have key : ∀ D D' : List (Pt K Q), SameFeatures D D' → (∃ p ∈ D, p.q = q) → (∃ p ∈ D', p.q = q) → bottleneckOne (pointsIn D q) ≤ bottleneckOne (pointsIn D' q) := by
        intro D D' hDD' hD hD'
        obtain ⟨p, hp, he⟩ := (bottleneckOne_spec _ (hne D hD)).2.1
        rw [he]
        by_cases hpd : p.b = p.d
        · rw [hpd, sub_self, zero_div, abs_zero]
          exact hnn D' hD'
        · have h1 : p ∈ offDiag (pointsIn D q) := by simp [offDiag, hp, hpd]
          have h2 := (pointsIn_perm hDD' q).mem_iff.mp h1
          have h3 : p ∈ pointsIn D' q := List.mem_of_mem_filter h2
          exact (bottleneckOne_spec _ (hne D' hD')).2.2 ⟨p, h3, rfl⟩
      exact le_antisymm (key D' D hDD'.symm hD' hD) (key D D' hDD' hD hD')
    · intro ht
      obtain ⟨p, hp, he⟩ := hg.1
      rw [mem_pointsIn] at hp
      rw [he, ht p hp.1 hp.2, sub_self, zero_div, abs_zero]

end

theorem pNorm_perm (p : ENNReal) {u v : List ℝ} (h : u.Perm v) : pNorm p u = pNorm p v := by
  unfold pNorm
  split
  · have : ∀ c, (u.map fun x => |x|).foldl max 0 ≤ c ↔ (v.map fun x => |x|).foldl max 0 ≤ c := by
      intro c
      rw [foldl_max_iSup, foldl_max_iSup]
      have := (h.map fun x => |x|)
      simp only [this.mem_iff]
    exact le_antisymm ((this _).mpr le_rfl) ((this _).mp le_rfl)
  · rw [(h.map fun x => |x| ^ p.toReal).sum_eq]

theorem pNorm_offDiag (p : ENNReal) (hp : 0 < p) (D : List (Pt ℝ Q)) (f : Pt ℝ Q → ℝ) (hf : ∀ x, x.b = x.d → f x = 0) : pNorm p (D.map f) = pNorm p ((offDiag D).map f) := by
  have h1 := (perm_offDiag D).trans (List.perm_append_comm)
  rw [pNorm_perm p (h1.map f), List.map_append]
  have : (D.filter fun p => decide (p.b = p.d)).map f = List.replicate (D.filter fun p => decide (p.b = p.d)).length 0 := by
    rw [List.eq_replicate_iff]
    refine ⟨by simp, ?_⟩
    intro x hx
    rw [List.mem_map] at hx
    obtain ⟨y, hy, rfl⟩ := hx
    rw [List.mem_filter] at hy
    exact hf y (by simpa using hy.2)
  rw [this, pNorm_zeros p hp]

theorem lpNorm_of_zero (p : ENNReal) (hp : 0 < p) (v : List ℝ) (h : ∀ x ∈ v, x = 0) : lpNorm p v = 0 := by
  have : v = [] ++ List.replicate v.length 0 := by
    rw [List.nil_append, List.eq_replicate_iff]
    exact ⟨rfl, h⟩
  rw [this, ← pNorm_eq p hp, pNorm_zeros p hp, pNorm_eq p hp]
  have := lpNorm_smul p hp 0 []
  simpa using this

/-- **C36**, `metric="wasserstein"`: as `C36_bottleneck`; the amplitude is the `p`-norm of the half lifetimes. -/
theorem C36_wasserstein (p : ENNReal) (hp : 0 < p) (dims : List Q) (hd : dims ≠ []) :
    ∃ α : Q → List (Pt ℝ Q) → ℝ,
      GivesAmplitudes (fun nJobs X => parallelAmplitude (fun _ => wassersteinAmplitudes p) dims nJobs X) dims Set.univ α ∧
      ∀ q ∈ dims, ∀ D : List (Pt ℝ Q), α q D = lpNorm p ((D.filter fun x => x.q = q).map fun x => (x.d - x.b) / 2) ∧
        0 ≤ α q D ∧ (∀ c, 0 < c → α q (scaleBy c D) = c * α q D) ∧
        (∀ D', SameFeatures D D' → α q D' = α q D) ∧ (TrivialIn D q → α q D = 0) := by
  refine ⟨fun q D => pNorm p ((pointsIn D q).map fun x => (x.d - x.b) / 2), ?_, ?_⟩
  · apply givesAmplitudes_of (fun _ => wassersteinAmplitudes p) (fun _ D => pNorm p (D.map fun x => (x.d - x.b) / 2)) dims hd
    intro q hq Y _ hS _
    simp [wassersteinAmplitudes, Function.comp_def]
  · intro q hq D
    beta_reduce
    refine ⟨pNorm_eq p hp _, by rw [pNorm_eq p hp]; exact lpNorm_nonneg _ _, ?_, ?_, ?_⟩
    · intro c hc
      have := lpNorm_smul p hp c ((pointsIn D q).map fun x => (x.d - x.b) / 2)
      rw [abs_of_pos hc] at this
      rw [pNorm_eq p hp, pNorm_eq p hp, ← this, pointsIn_scaleBy, scaleBy, List.map_map, List.map_map]
      congr 1
      apply List.map_congr_left
      intro x _
      simp only [Function.comp]
      ring
    · intro D' h
      have hf : ∀ x : Pt ℝ Q, x.b = x.d → (x.d - x.b) / 2 = 0 := by intro x hx; rw [hx]; simp
      rw [pNorm_offDiag p hp _ _ hf, pNorm_offDiag p hp (pointsIn D q) _ hf]
      exact pNorm_perm p ((pointsIn_perm h q).symm.map _)
    · intro h
      rw [pNorm_eq p hp]
      apply lpNorm_of_zero p hp
      intro x hx
      rw [List.mem_map] at hx
      obtain ⟨y, hy, rfl⟩ := hx
      rw [mem_pointsIn] at hy
      rw [h y hy.1 hy.2]
      simp

/-! ### Amplitudes based on vectors -/

theorem vecAmplitudes_gives (M : VecMetric Q) (p : ENNReal) (dims : List Q) (hd : dims ≠ []) (vec : Q → List (Pt ℝ Q) → List ℝ)
    (hv : ∀ q ∈ dims, ∀ Y, M.vecs q Y = .ok (Y.map (vec q))) :
    GivesAmplitudes (fun nJobs X => vecAmplitudes M p dims nJobs X) dims Set.univ fun q D => pNorm p (vec q (pointsIn D q)) * M.factor p q := by
  apply givesAmplitudes_of (fun q => batchAmplitudes (M.vecs q) fun v => pNorm p v * M.factor p q) (fun q D => pNorm p (vec q D) * M.factor p q) dims hd
  intro q hq Y _ _ _
  unfold batchAmplitudes
  rw [hv q hq]
  simp [Function.comp_def]

/-- **C36**, `metric="betti"`, `"heat"`, `"persistence_image"`: entry `[i, k]` is the `p`-norm of the vector which the corresponding transformer (with the same fitted samplings) outputs at
`[i, k]`, times a power of the step size; it is non-negative; for every number of jobs. -/
theorem C36_vectorised (M : VecMetric Q) (p : ENNReal) (hp : 0 < p) (dims : List Q) (hd : dims ≠ []) (hM : ∀ q ∈ dims, VecMetricFitted M q)
    (nJobs nJobs' : Nat) (X : List (List (Pt ℝ Q))) (hn : 1 ≤ nJobs) (hn' : 1 ≤ nJobs') (hX : X ≠ []) (hE : ∀ q ∈ dims, EqualCounts X q) :
    ∃ A V, vecAmplitudes M p dims nJobs X = .ok A ∧ representation M dims nJobs' X = .ok V ∧ A.length = X.length ∧ (∀ r ∈ A, r.length = dims.length) ∧
      ∀ (i k : Nat) q, i < X.length → dims[k]? = some q →
        ∃ v, entry2 V i k = some v ∧ entry2 A i k = some (lpNorm p v * stepPower M p q) ∧ 0 ≤ lpNorm p v * stepPower M p q := by
  obtain ⟨vec, m, hv⟩ := vecs_eq' M dims hM
  obtain ⟨A, hA, hl, hsh, hent⟩ := vecAmplitudes_gives M p dims hd vec (fun q hq => (hv q hq).2) nJobs X hn hX hE (fun _ _ => Set.mem_univ _)
  refine ⟨A, _, hA, representation_eq M dims vec (fun q hq => (hv q hq).2) nJobs' X hn' hd hX hE, hl, hsh, ?_⟩
  intro i k q hi hk
  have hq : q ∈ dims := List.mem_of_getElem? hk
  have e1 := List.getElem?_eq_getElem hi
  refine ⟨vec q (pointsIn X[i] q), by simp [entry2, List.getElem?_map, e1, hk], ?_, mul_nonneg (lpNorm_nonneg _ _) (stepPower_nonneg M p q (hM q hq))⟩
  rw [hent i k _ q e1 hk]
  beta_reduce
  rw [pNorm_eq p hp, factor_eq]

/-- The vectors of the metric do not depend on diagonal points: true of Betti curves, of heat kernels and, if the sampling of lifetimes starts at 0, of persistence images. -/
def PaddingSafe (M : VecMetric Q) (q : Q) : Prop :=
  match M with
  | .betti _ _ => True
  | .heat _ _ _ => True
  | .image _ _ _ s₁ _ _ => (s₁ q)[0]? = some 0

theorem vecs_same (M : VecMetric Q) (q : Q) (h : VecMetricFitted M q) (hs : PaddingSafe M q) (vec : List (Pt ℝ Q) → List ℝ) (hv : ∀ Y, M.vecs q Y = .ok (Y.map vec))
    (D D' : List (Pt ℝ Q)) (hD : SameFeatures D D') : vec D = vec D' := by
  have key : M.vecs q [D] = M.vecs q [D'] := by
    cases M with
    | betti s step =>
      have : ∀ s : ℝ, aliveCount s D = aliveCount s D' := by
        intro s
        have hoff : ∀ D : List (Pt ℝ Q), aliveCount s D = aliveCount s (offDiag D) := by
          intro D
          unfold aliveCount offDiag
          rw [List.filter_filter]
          congr 1
          apply List.filter_congr
          intro p _
          by_cases hp : p.b = p.d
          · rw [hp]
            have : ¬(p.d ≤ s ∧ s < p.d) := fun h => absurd h.2 (not_lt.mpr h.1)
            simp [ge_iff_le]
          · simp [hp]
        rw [hoff D, hoff D']
        exact (hD.filter _).length_eq
      simp [VecMetric.vecs, bettiVecs, bettiCurves_eq, this]
    | heat G s step =>
      obtain ⟨n, lo, hi, hn, h0, hs, hG⟩ := h
      simp [VecMetric.vecs, heatVecs, heatOne_same G (s q) n lo hi (step q) hn h0 hs D D' hD]
    | image G w s₀ s₁ step₀ step₁ =>
      obtain ⟨n, lo₀, hi₀, lo₁, hi₁, hn, h0, hs0, h1, hs1, hG⟩ := h
      have hlo : lo₁ = 0 := by
        have := hs1.2.1
        rw [show (s₁ q)[0]? = some 0 from hs] at this
        exact (Option.some.inj this).symm
      subst hlo
      simp [VecMetric.vecs, imageVecs, imageOne_same G (s₀ q) (s₁ q) n lo₀ hi₀ (step₀ q) hi₁ (step₁ q) hn h0 h1 hs0 hs1 ((s₁ q).map w) (by rw [List.length_map]; exact hs1.1) D D' hD]
  rw [hv, hv] at key
  injection key with key
  simpa using key

/-- **C36**, `metric="betti"`, `"heat"`, and, partially, `"persistence_image"`: amplitudes are not changed by reordering points and adding or removing diagonal points. Missing:
persistence images with a sampling of lifetimes not starting at 0, for which the claim is false (`C36_refuted_image`). -/
theorem C36_padding_partial (M : VecMetric Q) (p : ENNReal) (dims : List Q) (hd : dims ≠ []) (hM : ∀ q ∈ dims, VecMetricFitted M q) (hs : ∀ q ∈ dims, PaddingSafe M q) :
    ∃ α, GivesAmplitudes (fun nJobs X => vecAmplitudes M p dims nJobs X) dims Set.univ α ∧ ∀ q ∈ dims, ∀ D D', SameFeatures D D' → α q D = α q D' := by
  obtain ⟨vec, m, hv⟩ := vecs_eq' M dims hM
  refine ⟨_, vecAmplitudes_gives M p dims hd vec (fun q hq => (hv q hq).2), ?_⟩
  intro q hq D D' h
  rw [vecs_same M q (hM q hq) (hs q hq) (vec q) (hv q hq).2 _ _ (pointsIn_perm h q)]

/-- The smoothing filter does not change zero images. -/
def ZeroPreserving (M : VecMetric Q) : Prop :=
  match M with
  | .betti _ _ => True
  | .heat G _ _ => ∀ n I, SquareImage n I → (∀ r ∈ I, ∀ x ∈ r, x = 0) → G I = I
  | .image G _ _ _ _ _ => ∀ n I, SquareImage n I → (∀ r ∈ I, ∀ x ∈ r, x = 0) → G I = I

theorem image2_zero_flatten (n : Nat) : ∀ x ∈ (image2 n fun _ _ => (0 : ℝ)).flatten, x = 0 := by
  intro x hx
  simp only [image2, List.mem_flatten, List.mem_map] at hx
  obtain ⟨l, ⟨i, -, rfl⟩, hx⟩ := hx
  rw [List.mem_map] at hx
  obtain ⟨_, -, rfl⟩ := hx
  rfl

theorem vecs_trivial (M : VecMetric Q) (q : Q) (h : VecMetricFitted M q) (hs : PaddingSafe M q) (hz : ZeroPreserving M) (vec : List (Pt ℝ Q) → List ℝ)
    (hv : ∀ Y, M.vecs q Y = .ok (Y.map vec)) (D : List (Pt ℝ Q)) (hD : ∀ x ∈ D, x.b = x.d) : ∀ x ∈ vec D, x = 0 := by
  have hsame : SameFeatures D [] := by
    unfold SameFeatures offDiag
    rw [List.filter_eq_nil_iff.mpr (by intro x hx; simp [hD x hx])]
    simp
  rw [vecs_same M q h hs vec hv D [] hsame]
  have h0 := hv [[]]
  cases M with
  | betti s step =>
    simp only [VecMetric.vecs, bettiVecs, bettiCurves_eq] at h0
    injection h0 with h0
    simp only [List.map_cons, List.map_nil, List.cons.injEq, and_true] at h0
    rw [← h0]
    intro x hx
    simp [aliveCount] at hx
    exact hx.2
  | heat G s step =>
    obtain ⟨n, lo, hi, hn, hs0, hs, hG⟩ := h
    obtain ⟨H, hH, hsq, hz0⟩ := C30_trivial G (s q) n lo hi (step q) hn hs0 hs (hz n) ([] : List (Pt ℝ Q)) (by simp)
    simp only [VecMetric.vecs, heatVecs, List.mapM_cons, hH, List.mapM_nil, ok_bind] at h0
    injection h0 with h0
    simp only [List.map_cons, List.map_nil, List.cons.injEq, and_true] at h0
    rw [← h0]
    intro x hx
    rw [List.mem_flatten] at hx
    obtain ⟨r, hr, hx⟩ := hx
    exact hz0 r hr x hx
  | image G w s₀ s₁ step₀ step₁ =>
    obtain ⟨n, lo₀, hi₀, lo₁, hi₁, hn, hst0, hs0, hst1, hs1, hG⟩ := h
    have hH : imageOne G (s₀ q) (s₁ q) (step₀ q) (step₁ q) ((s₁ q).map w) ([] : List (Pt ℝ Q)) = .ok (image2 n fun _ _ => 0) := by
      unfold imageOne
      dsimp only
      rw [hs0.1]
      split
      · rfl
      · rename_i hne
        rw [not_or] at hne
        have p0 : 0 < step₀ q := lt_of_le_of_ne hst0 (Ne.symm hne.1)
        have p1 : 0 < step₁ q := lt_of_le_of_ne hst1 (Ne.symm hne.2)
        rw [imageRaster_eq (s₀ q) (s₁ q) n lo₀ hi₀ (step₀ q) lo₁ hi₁ (step₁ q) (by omega) p0 p1 hs0 hs1 ((s₁ q).map w) (by rw [List.length_map]; exact hs1.1) []]
        have e : (image2 n fun (i j : Nat) => ((imageCoords lo₀ hi₀ (step₀ q) lo₁ hi₁ (step₁ q) ([] : List (Pt ℝ Q))).count ((i : Int), (j : Int)) : ℝ) * (((s₁ q).map w)[j]?).getD 0) =
            image2 n fun _ _ => 0 := by
          simp [imageCoords]
        rw [e]
        simp only [ok_bind]
        rw [hz n _ (squareImage_image2 n _) (by
          intro r hr x hx
          exact image2_zero_flatten n x (List.mem_flatten.mpr ⟨r, hr, hx⟩)), rot90_image2, map_image2]
        simp
    simp only [VecMetric.vecs, imageVecs, List.mapM_cons, hH, List.mapM_nil, ok_bind] at h0
    injection h0 with h0
    simp only [List.map_cons, List.map_nil, List.cons.injEq, and_true] at h0
    rw [← h0]
    exact image2_zero_flatten n

/-- **C36**, `metric="betti"`, `"heat"`, and, partially as in `C36_padding_partial`, `"persistence_image"`: the amplitude of a diagram all of whose points are diagonal is zero. -/
theorem C36_trivial_partial (M : VecMetric Q) (p : ENNReal) (hp : 0 < p) (dims : List Q) (hd : dims ≠ []) (hM : ∀ q ∈ dims, VecMetricFitted M q) (hs : ∀ q ∈ dims, PaddingSafe M q)
    (hz : ZeroPreserving M) :
    ∃ α, GivesAmplitudes (fun nJobs X => vecAmplitudes M p dims nJobs X) dims Set.univ α ∧ ∀ q ∈ dims, ∀ D, TrivialIn D q → α q D = 0 := by
  obtain ⟨vec, m, hv⟩ := vecs_eq' M dims hM
  refine ⟨_, vecAmplitudes_gives M p dims hd vec (fun q hq => (hv q hq).2), ?_⟩
  intro q hq D h
  rw [pNorm_eq p hp, lpNorm_of_zero p hp _ (vecs_trivial M q (hM q hq) (hs q hq) hz (vec q) (hv q hq).2 (pointsIn D q) ?_), zero_mul]
  intro x hx
  rw [mem_pointsIn] at hx
  exact h x hx.1 hx.2

/-- **C36** is false for persistence images: with a sampling of lifetimes starting at 1 (as fitted on a collection without diagonal points), weights 1 and no smoothing, a diagram whose only
point is diagonal has a positive amplitude, while without this point the amplitude is zero. -/
theorem C36_refuted_image :
    vecAmplitudes (.image id (fun _ => 1) (fun _ => [0, 2]) (fun _ => [1, 2]) (fun _ => 2) (fun _ => 1)) ⊤ [0] 1 [[⟨0, 0, (0 : Nat)⟩]] = .ok [[1 / 2]] ∧
    vecAmplitudes (.image id (fun _ => 1) (fun _ => [0, 2]) (fun _ => [1, 2]) (fun _ => 2) (fun _ => 1)) ⊤ [0] 1 [([] : List (Pt ℝ Nat))] = .ok [[0]] := by
  have h1 : imageOne id [0, 2] [1, 2] 2 1 [1, 1] [(⟨0, 0, 0⟩ : Pt ℝ Nat)] = .ok [[0, 0], [1 / 2, 0]] := by
    norm_num [imageOne, imageRaster, clipTo, pixel, sampleImage, setPixel, resolveIdx, image2, set2, rot90, transposeN, List.range_succ, List.filterMap_cons]
  have h0 : imageOne id [0, 2] [1, 2] 2 1 [1, 1] ([] : List (Pt ℝ Nat)) = .ok [[0, 0], [0, 0]] := by
    norm_num [imageOne, imageRaster, sampleImage, image2, rot90, transposeN, List.range_succ, List.filterMap_cons]
  constructor
  all_goals
    unfold vecAmplitudes parallelAmplitude
    rw [perDim_eq _ (fun _ D => if D = [] then 0 else 1 / 2) [0] 1 le_rfl (by simp) _ (by simp) (by simp [EqualCounts])]
    · simp [pointsIn]
    · intro q hq Y _ hY
      rw [List.mem_singleton] at hq
      subst hq
      have hv : ∀ D ∈ Y, imageOne id [0, 2] [1, 2] 2 1 ([1, 2].map fun _ => (1 : ℝ)) (pointsIn D 0) = .ok (if pointsIn D 0 = [] then [[0, 0], [0, 0]] else [[0, 0], [1 / 2, 0]]) := by
        intro D hD
        have := List.mem_singleton.mp (hY D hD)
        subst this
        first | simpa [pointsIn] using h1 | simpa [pointsIn] using h0
      simp only [batchAmplitudes, VecMetric.vecs, imageVecs]
      rw [List.mapM_map, mapM_ok (g := fun D => if pointsIn D 0 = [] then [[0, 0], [0, 0]] else [[0, 0], [1 / 2, 0]]) (by simpa using hv)]
      simp only [ok_bind, List.map_map]
      congr 1
      apply List.map_congr_left
      intro D hD
      simp only [Function.comp_apply]
      split_ifs <;> norm_num [pNorm, VecMetric.factor, stepFactor]

/-! ### Landscapes and silhouettes -/

theorem landscapeAmplitudes_gives (p : ENNReal) (n : Nat) (sampling : Q → List ℝ) (step : Q → ℝ) (dims : List Q) (hd : dims ≠ []) :
    GivesAmplitudes (fun nJobs X => landscapeAmplitudes p n sampling step dims nJobs X) dims Set.univ fun q D => pNorm p (layerVec (sampling q) n (pointsIn D q)) * stepFactor 1 p (step q) := by
  apply givesAmplitudes_of (fun q => batchAmplitudes (landscapeVecs (sampling q) n) fun v => pNorm p v * stepFactor 1 p (step q)) (fun q D => pNorm p (layerVec (sampling q) n D) * stepFactor 1 p (step q)) dims hd
  intro q hq Y hY _ hE
  obtain ⟨m, hm⟩ := pointsIn_length_of_equalCounts Y q hY hE
  unfold batchAmplitudes landscapeVecs
  rw [flatLandscapes_eq _ _ n m hm]
  simp [Function.comp_def]

/-- **C36** and **C35**, `metric="landscape"`: entry `[i, k]` is the `p`-norm of all `n_layers` layers which `PersistenceLandscape(n_layers)` restricted to the `k`-th dimension outputs for
diagram `i`, times `step ** (1 / p)`. Computing more layers than there are points does not change it. -/
theorem C35_landscape_amplitudes (p : ENNReal) (hp : 0 < p) (n : Nat) (sampling : Q → List ℝ) (step : Q → ℝ) (dims : List Q) (hd : dims ≠ []) (hs : ∀ q ∈ dims, 0 ≤ step q)
    (nJobs nJobs' : Nat) (X : List (List (Pt ℝ Q))) (hn : 1 ≤ nJobs) (hn' : 1 ≤ nJobs') (hX : X ≠ []) (hE : ∀ q ∈ dims, EqualCounts X q) :
    ∃ A, landscapeAmplitudes p n sampling step dims nJobs X = .ok A ∧ A.length = X.length ∧ (∀ r ∈ A, r.length = dims.length) ∧
      (∀ (i k : Nat) q, i < X.length → dims[k]? = some q →
        ∃ L u, landscapeTransform [q] sampling n nJobs' X = .ok L ∧ L[i]? = some u ∧ u.length = n ∧ (∀ l ∈ u, l.length = (sampling q).length) ∧
          entry2 A i k = some (lpNorm p u.flatten * step q ^ (1 / p).toReal) ∧ 0 ≤ lpNorm p u.flatten * step q ^ (1 / p).toReal) ∧
      ((∀ q ∈ dims, ∀ D ∈ X, (pointsIn D q).length ≤ n) → ∀ n', n ≤ n' → landscapeAmplitudes p n' sampling step dims nJobs' X = .ok A) := by
  obtain ⟨A, hA, hl, hsh, hent⟩ := landscapeAmplitudes_gives p n sampling step dims hd nJobs X hn hX hE (fun _ _ => Set.mem_univ _)
  refine ⟨A, hA, hl, hsh, ?_, ?_⟩
  · intro i k q hi hk
    have hq : q ∈ dims := List.mem_of_getElem? hk
    have e1 := List.getElem?_eq_getElem hi
    have hsub : ∀ q' ∈ [q], q' ∈ dims := by simpa using hq
    refine ⟨_, (List.range n).map fun k => (sampling q).map fun s => layerAt (pointsIn X[i] q) k s,
      landscapeTransform_eq [q] sampling n nJobs' X hn' (by simp) hX (fun q' h => hE q' (hsub q' h)), ?_, by simp, by simp, ?_, mul_nonneg (lpNorm_nonneg _ _) (Real.rpow_nonneg (hs q hq) _)⟩
    · simp [List.getElem?_map, e1]
    · rw [hent i k _ q e1 hk]
      beta_reduce
      rw [pNorm_eq p hp, stepFactor_eq, one_mul]
      rfl
  · intro hle n' hn''
    obtain ⟨A', hA', hl', hsh', hent'⟩ := landscapeAmplitudes_gives p n' sampling step dims hd nJobs' X hn' hX hE (fun _ _ => Set.mem_univ _)
    dsimp only at hA'
    rw [hA']
    congr 1
    apply List.ext_getElem?
    intro i
    by_cases hi : i < X.length
    · have ha : i < A.length := by omega
      have ha' : i < A'.length := by omega
      rw [List.getElem?_eq_getElem ha, List.getElem?_eq_getElem ha']
      congr 1
      apply List.ext_getElem?
      intro k
      by_cases hk : k < dims.length
      · have h1 := hent i k _ _ (List.getElem?_eq_getElem hi) (List.getElem?_eq_getElem hk)
        have h2 := hent' i k _ _ (List.getElem?_eq_getElem hi) (List.getElem?_eq_getElem hk)
        simp only [entry2, List.getElem?_eq_getElem ha, List.getElem?_eq_getElem ha', Option.bind_eq_bind, Option.bind_some] at h1 h2
        rw [h1, h2, layerVec_beyond _ n n' _ hn'' (le_trans (min_le_right _ _) (hle _ (List.getElem_mem hk) _ (List.getElem_mem hi))), pNorm_zeros p hp]
      · rw [List.getElem?_eq_none, List.getElem?_eq_none]
        · rw [hsh _ (List.getElem_mem ha)]; omega
        · rw [hsh' _ (List.getElem_mem ha')]; omega
    · rw [List.getElem?_eq_none (by omega), List.getElem?_eq_none (by omega)]

/-- **C36**, `metric="landscape"`: non-negative, not changed by reordering points and adding or removing diagonal points, zero if all points are diagonal. -/
theorem C36_landscape (p : ENNReal) (hp : 0 < p) (n : Nat) (sampling : Q → List ℝ) (step : Q → ℝ) (dims : List Q) (hd : dims ≠ []) (hs : ∀ q ∈ dims, 0 ≤ step q) :
    ∃ α, GivesAmplitudes (fun nJobs X => landscapeAmplitudes p n sampling step dims nJobs X) dims Set.univ α ∧
      ∀ q ∈ dims, ∀ D : List (Pt ℝ Q), 0 ≤ α q D ∧ (∀ D', SameFeatures D D' → α q D = α q D') ∧ (TrivialIn D q → α q D = 0) := by
  refine ⟨_, landscapeAmplitudes_gives p n sampling step dims hd, ?_⟩
  intro q hq D
  refine ⟨?_, ?_, ?_⟩
  · rw [pNorm_eq p hp, stepFactor_eq]
    exact mul_nonneg (lpNorm_nonneg _ _) (Real.rpow_nonneg (hs q hq) _)
  · intro D' h
    have : ∀ k s, layerAt (pointsIn D q) k s = layerAt (pointsIn D' q) k s := layerAt_same _ _ (pointsIn_perm h q)
    unfold layerVec
    simp only [this]
  · intro h
    rw [pNorm_eq p hp, lpNorm_of_zero p hp, zero_mul]
    intro x hx
    unfold layerVec at hx
    rw [List.mem_flatten] at hx
    obtain ⟨l, hl, hx⟩ := hx
    rw [List.mem_map] at hl
    obtain ⟨k, -, rfl⟩ := hl
    rw [List.mem_map] at hx
    obtain ⟨s, -, rfl⟩ := hx
    rw [layerAt_offDiag, (trivialIn_offDiag D q).mp h]
    exact layerAt_beyond _ _ _ (Nat.zero_le _)

theorem silhouetteAmplitudes_gives (p : ENNReal) (power : ℝ) (h0 : 0 < power) (sampling : Q → List ℝ) (step : Q → ℝ) (dims : List Q) (hd : dims ≠ []) :
    GivesAmplitudes (fun nJobs X => silhouetteAmplitudes p power sampling step dims nJobs X) dims (SilhouetteDefined power dims)
      fun q D => some (pNorm p ((sampling q).map (weightedTents (fun x => x ^ power) (pointsIn D q))) * stepFactor 1 p (step q)) := by
  apply givesAmplitudes_of _ (fun q D => some (pNorm p ((sampling q).map (weightedTents (fun x => x ^ power) D)) * stepFactor 1 p (step q))) dims hd
  intro q hq Y _ hS _
  unfold batchAmplitudes
  rw [silhouetteVecs_eq power h0 (sampling q) dims q hq Y hS]
  have : ∀ D : List (Pt ℝ Q), ((sampling q).map fun s => some (weightedTents (fun x => x ^ power) D s)) = ((sampling q).map (weightedTents (fun x => x ^ power) D)).map some := by
    intro D; rw [List.map_map]; rfl
  rw [ok_bind, List.map_map, List.map_map]
  congr 1
  apply List.map_congr_left
  intro D _
  rw [Function.comp_apply, Function.comp_apply, liftNan, this, mapM_id_some, Option.map_some]

/-- **C36**, `metric="silhouette"`, partial: on the diagrams whose silhouettes are defined, amplitudes are non-negative, not changed by reordering points and adding or removing diagonal
points, and zero if all points are diagonal. Missing: diagrams with only diagonal points for `power > 8` (`C29_refuted_trivial`). -/
theorem C36_silhouette_partial (p : ENNReal) (hp : 0 < p) (power : ℝ) (h0 : 0 < power) (sampling : Q → List ℝ) (step : Q → ℝ) (dims : List Q) (hd : dims ≠ []) (hs : ∀ q ∈ dims, 0 ≤ step q) :
    ∃ α : Q → List (Pt ℝ Q) → ℝ, GivesAmplitudes (fun nJobs X => silhouetteAmplitudes p power sampling step dims nJobs X) dims (SilhouetteDefined power dims) (fun q D => some (α q D)) ∧
      ∀ q ∈ dims, ∀ D : List (Pt ℝ Q), 0 ≤ α q D ∧ (∀ D', SameFeatures D D' → α q D = α q D') ∧ (TrivialIn D q → α q D = 0) := by
  refine ⟨fun q D => pNorm p ((sampling q).map (weightedTents (fun x => x ^ power) (pointsIn D q))) * stepFactor 1 p (step q), silhouetteAmplitudes_gives p power h0 sampling step dims hd, ?_⟩
  intro q hq D
  beta_reduce
  refine ⟨?_, ?_, ?_⟩
  · rw [pNorm_eq p hp, stepFactor_eq]
    exact mul_nonneg (lpNorm_nonneg _ _) (Real.rpow_nonneg (hs q hq) _)
  · intro D' h
    have : weightedTents (fun x : ℝ => x ^ power) (pointsIn D q) = weightedTents (fun x => x ^ power) (pointsIn D' q) :=
      funext fun s => weightedTents_same (powLike_rpow power h0) _ _ (pointsIn_perm h q) s
    rw [this]
  · intro h
    rw [pNorm_eq p hp, lpNorm_of_zero p hp, zero_mul]
    intro x hx
    rw [List.mem_map] at hx
    obtain ⟨s, -, rfl⟩ := hx
    have hsame : SameFeatures (pointsIn D q) [] := by
      unfold SameFeatures
      rw [(trivialIn_offDiag D q).mp h]
      exact List.Perm.refl _
    rw [weightedTents_same (powLike_rpow power h0) _ _ hsame]
    simp [weightedTents]

/-- **C36**, `order` not `None`: the output is the column of norms of order `order` of the rows of amplitudes. -/
theorem C36_aggregated (T : Nat → List (List (Pt ℝ Q)) → PyM (List (List ℝ))) (dims : List Q) (S : Set (List (Pt ℝ Q))) (α : Q → List (Pt ℝ Q) → ℝ)
    (hT : GivesAmplitudes T dims S α) (order : ENNReal) (ho : 0 < order) (nJobs : Nat) (X : List (List (Pt ℝ Q))) (hn : 1 ≤ nJobs) (hX : X ≠ []) (hE : ∀ q ∈ dims, EqualCounts X q)
    (hS : ∀ D ∈ X, D ∈ S) :
    ∃ A, (T nJobs X).map (aggregateAmplitude order) = .ok A ∧ A.length = X.length ∧ ∀ (i : Nat) D, X[i]? = some D → A[i]? = some [lpNorm order (dims.map fun q => α q D)] := by
  obtain ⟨A, hA, hl, hsh, hent⟩ := hT nJobs X hn hX hE hS
  refine ⟨aggregateAmplitude order A, by rw [hA]; rfl, by simp [aggregateAmplitude, hl], ?_⟩
  intro i D hi
  have hi' : i < A.length := by rw [hl]; exact (List.getElem?_eq_some_iff.mp hi).1
  have : A[i] = dims.map fun q => α q D := by
    apply List.ext_getElem?
    intro k
    rw [List.getElem?_map]
    by_cases hk : k < dims.length
    · have := hent i k D dims[k] hi (List.getElem?_eq_getElem hk)
      simp only [entry2, List.getElem?_eq_getElem hi', Option.bind_eq_bind, Option.bind_some] at this
      rw [this, List.getElem?_eq_getElem hk]
      rfl
    · rw [List.getElem?_eq_none, List.getElem?_eq_none (by omega)]
      · rfl
      · rw [hsh _ (List.getElem_mem hi')]; omega
  simp [aggregateAmplitude, List.getElem?_map, List.getElem?_eq_getElem hi', this, pNorm_eq order ho]

/-! ### C26 -/

/-- **C26.** `Scaler(metric="bottleneck", function=np.max)` fitted and applied to a collection with an off-diagonal point makes the longest lifetime, over all diagrams and homology
dimensions, equal to 2. -/
theorem C26_scaler_bottleneck [Field K] [LinearOrder K] [IsStrictOrderedRing K] (dims : List Q) (nJobs : Nat) (X : List (List (Pt K Q))) (D₀ : List (Pt K Q)) (hn : 1 ≤ nJobs) (hX : X[0]? = some D₀)
    (hdims : ∀ q, q ∈ dims ↔ ∃ p ∈ D₀, p.q = q) (hE : ∀ q, EqualCounts X q) (hv : ∀ D ∈ X, ∀ p ∈ D, p.b ≤ p.d) (ho : ∃ D ∈ X, ∃ p ∈ D, p.b ≠ p.d) :
    ∃ Y, scalerFitTransform dims nJobs X = .ok Y ∧ IsGreatest {x | ∃ D ∈ Y, ∃ p ∈ D, x = p.d - p.b} 2 := by
  have hD0 : D₀ ∈ X := List.mem_of_getElem? hX
  have hXne : X ≠ [] := List.ne_nil_of_mem hD0
  -- every dimension occurring in the collection is in `dims` and occurs in every diagram
  have hall : ∀ q ∈ dims, ∀ D ∈ X, ∃ p ∈ D, p.q = q := by
    intro q hq D hD
    obtain ⟨p, hp, hpq⟩ := (hdims q).mp hq
    have h1 := hE q D hD D₀ hD0
    have h2 : 0 < (pointsIn D₀ q).length := List.length_pos_of_mem ((mem_pointsIn D₀ q p).mpr ⟨hp, hpq⟩)
    obtain ⟨p', hp'⟩ := List.exists_mem_of_length_pos (h1 ▸ h2)
    exact ⟨p', (mem_pointsIn D q p').mp hp'⟩
  have hmem : ∀ D ∈ X, ∀ p ∈ D, p.q ∈ dims := by
    intro D hD p hp
    rw [hdims]
    have h1 := hE p.q D hD D₀ hD0
    have h2 : 0 < (pointsIn D p.q).length := List.length_pos_of_mem ((mem_pointsIn D p.q p).mpr ⟨hp, rfl⟩)
    obtain ⟨p', hp'⟩ := List.exists_mem_of_length_pos (h1 ▸ h2)
    exact ⟨p', (mem_pointsIn D₀ p.q p').mp hp'⟩
  obtain ⟨Do, hDo, po, hpo, hne⟩ := ho
  have hdne : dims ≠ [] := List.ne_nil_of_mem (hmem Do hDo po hpo)
  obtain ⟨α, hα, hprop⟩ := C36_bottleneck (K := K) dims hdne
  obtain ⟨A, hA, hl, hsh, hent⟩ := hα nJobs X hn hXne (fun q _ => hE q) (fun D hD q hq => hall q hq D hD)
  dsimp only at hA
  -- every entry of the amplitude array is the amplitude of a diagram, and conversely
  have hAmem : ∀ a, a ∈ A.flatten ↔ ∃ D ∈ X, ∃ q ∈ dims, a = α q D := by
    intro a
    rw [List.mem_flatten]
    constructor
    · rintro ⟨r, hr, ha⟩
      obtain ⟨i, hi, rfl⟩ := List.getElem_of_mem hr
      obtain ⟨k, hk, rfl⟩ := List.getElem_of_mem ha
      have hk' : k < dims.length := by rw [← hsh _ hr]; exact hk
      have hi' : i < X.length := by omega
      have := hent i k _ _ (List.getElem?_eq_getElem hi') (List.getElem?_eq_getElem hk')
      simp only [entry2, List.getElem?_eq_getElem hi, Option.bind_eq_bind, Option.bind_some, List.getElem?_eq_getElem hk] at this
      exact ⟨_, List.getElem_mem hi', _, List.getElem_mem hk', Option.some.inj this⟩
    · rintro ⟨D, hD, q, hq, rfl⟩
      obtain ⟨i, hi, rfl⟩ := List.getElem_of_mem hD
      obtain ⟨k, hk, rfl⟩ := List.getElem_of_mem hq
      have := hent i k _ _ (List.getElem?_eq_getElem hi) (List.getElem?_eq_getElem hk)
      have hi' : i < A.length := by omega
      simp only [entry2, List.getElem?_eq_getElem hi', Option.bind_eq_bind, Option.bind_some] at this
      exact ⟨A[i], List.getElem_mem hi', List.mem_of_getElem? this⟩
  obtain ⟨s, hs, hg⟩ := npMax_spec A.flatten (List.ne_nil_of_mem ((hAmem _).mpr ⟨Do, hDo, po.q, hmem Do hDo po hpo, rfl⟩))
  have hle : ∀ D ∈ X, ∀ p ∈ D, p.d - p.b ≤ 2 * s := by
    intro D hD p hp
    have hq := hmem D hD p hp
    have h1 := ((hprop p.q hq D (hall p.q hq D hD)).1 (hv D hD)).2 ⟨p, hp, rfl, rfl⟩
    have h2 := hg.2 ((hAmem _).mpr ⟨D, hD, p.q, hq, rfl⟩)
    linarith
  have hattain : ∃ D ∈ X, ∃ p ∈ D, p.d - p.b = 2 * s := by
    obtain ⟨D, hD, q, hq, e⟩ := (hAmem s).mp hg.1
    obtain ⟨p, hp, _, hx⟩ := ((hprop q hq D (hall q hq D hD)).1 (hv D hD)).1
    exact ⟨D, hD, p, hp, by rw [e]; exact hx.symm⟩
  have hspos : 0 < s := by
    have h1 := hle Do hDo po hpo
    have h2 := lt_of_le_of_ne (hv Do hDo po hpo) hne
    linarith
  refine ⟨scalerDivide s X, ?_, ?_⟩
  · unfold scalerFitTransform scalerFit
    rw [hA]
    simp only [ok_bind]
    rw [hs]
    rfl
  · constructor
    · obtain ⟨D, hD, p, hp, e⟩ := hattain
      refine ⟨_, List.mem_map_of_mem hD, _, List.mem_map_of_mem hp, ?_⟩
      simp only
      rw [← sub_div, e, mul_div_assoc, div_self (ne_of_gt hspos), mul_one]
    · rintro x ⟨D, hD, p, hp, rfl⟩
      unfold scalerDivide at hD
      rw [List.mem_map] at hD
      obtain ⟨D, hD, rfl⟩ := hD
      rw [List.mem_map] at hp
      obtain ⟨p, hp, rfl⟩ := hp
      simp only
      rw [← sub_div, div_le_iff₀ hspos]
      exact hle D hD p hp

example : scalerFitTransform [0, 1] 2 crvX = .ok [[⟨0, 1, 0⟩, ⟨1/2, 3/2, 0⟩, ⟨1/2, 1/2, 1⟩], [⟨0, 1/2, 0⟩, ⟨0, 2, 1⟩, ⟨5/2, 5/2, 0⟩]] := by decide +kernel

/-! ### Instances of the hypotheses -/

example : parallelAmplitude (fun _ => bottleneckAmplitudes) [0, 1] 2 crvX = .ok [[1, 0], [1 / 2, 2]] := by decide +kernel

example : (∀ q, q ∈ [0, 1] ↔ ∃ p ∈ ([⟨0, 2, 0⟩, ⟨1, 3, 0⟩, ⟨1, 1, 1⟩] : List (Pt ℚ Nat)), p.q = q) ∧ (∀ D ∈ crvX, ∀ p ∈ D, p.b ≤ p.d) ∧ ∃ D ∈ crvX, ∃ p ∈ D, p.b ≠ p.d := by
  refine ⟨fun q => by simp; omega, by decide +kernel, by decide +kernel⟩

example : TrivialIn (crvX.headD []) 1 ∧ ¬ TrivialIn (crvX.headD []) 0 := by unfold TrivialIn; decide +kernel

example : PaddingSafe (Q := Nat) (.image id (fun x => x) (fun _ => [0, 1, 2]) (fun _ => [0, 1, 2]) (fun _ => 1) (fun _ => 1)) 0 := rfl
example : ZeroPreserving (Q := Nat) (.heat id (fun _ => [0, 1, 2]) (fun _ => 1)) := fun _ _ _ _ => rfl

end Gtda.Props
