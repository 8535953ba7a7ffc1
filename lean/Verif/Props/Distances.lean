import Verif.Lemmas.Distances
import Verif.Props.Raster
import Verif.Props.Silhouette

set_option autoImplicit false
set_option linter.unusedSectionVars false

/-!
# Pairwise distances (C33, C34, C35)
-/

namespace Gtda.Props
open Gtda.Py Gtda.Parallel Gtda.Diagrams

variable {K Q : Type} [DecidableEq Q]

/-! ### Auxiliary results -/

theorem givesDistances_of {R : Type} (metric : Q → List (List (Pt K Q)) → List (List (Pt K Q)) → PyM (List (List R)))
    (δ : Q → List (Pt K Q) → List (Pt K Q) → R) (dims : List Q) (hd : dims ≠ []) (S : Set (List (Pt K Q)))
    (hm : ∀ q ∈ dims, ∀ Y₁ Y₂ : List (List (Pt K Q)), Y₁ ≠ [] → Y₂ ≠ [] → (∀ D ∈ Y₁, D ∈ S) → (∀ D ∈ Y₂, D ∈ S) → EqualCounts Y₁ q → EqualCounts Y₂ q →
      metric q (Y₁.map fun D => pointsIn D q) (Y₂.map fun D => pointsIn D q) =
        .ok (Y₁.map fun D => Y₂.map fun D' => δ q (pointsIn D q) (pointsIn D' q))) :
    GivesDistances (fun nJobs X₁ X₂ => parallelPairwise metric X₁ X₂ dims nJobs) dims S fun q D D' => δ q (pointsIn D q) (pointsIn D' q) := by
  intro nJobs X₁ X₂ hn h1 h2 hE1 hE2 hS1 hS2
  refine ⟨_, parallelPairwise_eq metric δ X₁ X₂ dims nJobs hn hd h1 h2 hE1 hE2 ?_, by simp, by simp, ?_⟩
  · intro q hq Y hY hsub
    exact hm q hq X₁ Y h1 hY hS1 (fun D hD => hS2 D (hsub D hD)) (hE1 q hq) (equalCounts_sub X₂ Y q (hE2 q hq) hsub)
  · intro i j k D D' q hi hj hk
    simp [entry3, List.getElem?_map, hi, hj, hk]

/-- The output of `aggregate` for a computation giving the distances `δ`. -/
theorem aggregate_entries' {R R' : Type} {X₁ X₂ : List (List (Pt K Q))} {dims : List Q} {A : List (List (List R))} {δ : Q → List (Pt K Q) → List (Pt K Q) → R}
    (hs : ∀ r ∈ A, r.length = X₂.length ∧ ∀ c ∈ r, c.length = dims.length) (hl : A.length = X₁.length)
    (h : ∀ (i j k : Nat) D D' q, X₁[i]? = some D → X₂[j]? = some D' → dims[k]? = some q → entry3 A i j k = some (δ q D D')) (f : List R → R') (i j : Nat) (D D' : List (Pt K Q))
    (hi : X₁[i]? = some D) (hj : X₂[j]? = some D') : entry2 (A.map fun r => r.map f) i j = some (f (dims.map fun q => δ q D D')) := by
  have hi' : i < A.length := by rw [hl]; exact (List.getElem?_eq_some_iff.mp hi).1
  have hr := hs A[i] (List.getElem_mem hi')
  have hj' : j < A[i].length := by rw [hr.1]; exact (List.getElem?_eq_some_iff.mp hj).1
  have hc := hr.2 A[i][j] (List.getElem_mem hj')
  have : A[i][j] = dims.map fun q => δ q D D' := by
    apply List.ext_getElem?
    intro k
    rw [List.getElem?_map]
    by_cases hk : k < dims.length
    · have := h i j k D D' dims[k] hi hj (List.getElem?_eq_getElem hk)
      simp only [entry3, List.getElem?_eq_getElem hi', Option.bind_eq_bind, Option.bind_some, List.getElem?_eq_getElem hj'] at this
      rw [this, List.getElem?_eq_getElem hk]
      rfl
    · rw [List.getElem?_eq_none (by omega), List.getElem?_eq_none (by omega)]
      rfl
  simp [entry2, List.getElem?_map, List.getElem?_eq_getElem hi', List.getElem?_eq_getElem hj', this]

theorem aggregate_entries {X₁ X₂ : List (List (Pt K Q))} {dims : List Q} {A : List (List (List ℝ))} {δ : Q → List (Pt K Q) → List (Pt K Q) → ℝ}
    (hs : ∀ r ∈ A, r.length = X₂.length ∧ ∀ c ∈ r, c.length = dims.length) (hl : A.length = X₁.length)
    (h : ∀ (i j k : Nat) D D' q, X₁[i]? = some D → X₂[j]? = some D' → dims[k]? = some q → entry3 A i j k = some (δ q D D')) (order : ENNReal) (i j : Nat) (D D' : List (Pt K Q))
    (hi : X₁[i]? = some D) (hj : X₂[j]? = some D') : entry2 (aggregate order A) i j = some (pNorm order (dims.map fun q => δ q D D')) :=
  aggregate_entries' hs hl h (pNorm order) i j D D' hi hj

theorem lpNorm_pseudo {α : Type} (order : ENNReal) (ho : 1 ≤ order) (dims : List Q) (S : Set α) (δ : Q → α → α → ℝ) (h : ∀ q ∈ dims, PseudometricOn S (δ q)) :
    PseudometricOn S fun x y => lpNorm order (dims.map fun q => δ q x y) := by
  have hpos : 0 < order := lt_of_lt_of_le one_pos ho
  constructor
  · intro x _ y _; exact lpNorm_nonneg _ _
  · intro x hx
    have : (dims.map fun q => δ q x x) = (dims.map fun q => δ q x x).map fun v => 0 * v := by
      rw [List.map_map]
      apply List.map_congr_left
      intro q hq
      rw [(h q hq).zero x hx]
      simp [(h q hq).zero x hx]
    rw [this, lpNorm_smul order hpos]
    simp
  · intro x hx y hy
    congr 1
    apply List.map_congr_left
    intro q hq
    exact (h q hq).symm x hx y hy
  · intro x hx y hy z hz
    refine le_trans (lpNorm_mono order hpos ?_) (lpNorm_add_le order ho dims (fun q => δ q x y) (fun q => δ q y z))
    rw [List.forall₂_map_left_iff, List.forall₂_map_right_iff, List.forall₂_same]
    intro q hq
    exact ⟨(h q hq).nonneg x hx z hz, (h q hq).triangle x hx y hy z hz⟩

/-! ### Vectorisations -/

/-- The fitted parameters are as produced by `fit` with `n_bins ≥ 2` (see `C32_samplings`); the smoothing filter maps `n × n` images to `n × n` images. -/
def VecMetricFitted (M : VecMetric Q) (q : Q) : Prop :=
  match M with
  | .betti _ step => 0 ≤ step q
  | .heat G s step => ∃ n lo hi, 2 ≤ n ∧ 0 ≤ step q ∧ EquallySpaced (s q) n lo hi (step q) ∧ ∀ I, SquareImage n I → SquareImage n (G I)
  | .image G _ s₀ s₁ step₀ step₁ => ∃ n lo₀ hi₀ lo₁ hi₁, 2 ≤ n ∧ 0 ≤ step₀ q ∧ EquallySpaced (s₀ q) n lo₀ hi₀ (step₀ q) ∧ 0 ≤ step₁ q ∧ EquallySpaced (s₁ q) n lo₁ hi₁ (step₁ q) ∧
      ∀ I, SquareImage n I → SquareImage n (G I)

/-- The output of the transformer corresponding to the metric (`BettiCurve`, `HeatKernel`, `PersistenceImage`), images being flattened. -/
noncomputable def representation (M : VecMetric Q) (dims : List Q) (nJobs : Nat) (X : List (List (Pt ℝ Q))) : PyM (List (List (List ℝ))) :=
  match M with
  | .betti s _ => (bettiTransform dims s nJobs X).map fun R => R.map fun r => r.map fun c => c.map fun (k : Nat) => (k : ℝ)
  | .heat G s step => (heatTransform G dims s step nJobs X).map fun R => R.map fun r => r.map List.flatten
  | .image G w s₀ s₁ step₀ step₁ => (imageTransform G w dims s₀ s₁ step₀ step₁ nJobs X).map fun R => R.map fun r => r.map List.flatten

theorem flatten_square {α : Type} {n : Nat} {I : List (List α)} (h : SquareImage n I) : I.flatten.length = n * n := by
  have := Gtda.length_flatten_uniform I n h.2
  rw [h.1] at this
  exact this

theorem imageOne_ok {K : Type} [Field K] [LinearOrder K] [IsStrictOrderedRing K] [FloorRing K] (G : List (List K) → List (List K)) (s₀ s₁ : List K) (n : Nat) (lo₀ hi₀ step₀ lo₁ hi₁ step₁ : K)
    (hn : 2 ≤ n) (hs₀ : 0 ≤ step₀) (hs₁ : 0 ≤ step₁)
    (h₀ : EquallySpaced s₀ n lo₀ hi₀ step₀) (h₁ : EquallySpaced s₁ n lo₁ hi₁ step₁) (w : List K) (hw : w.length = n) (hG : ∀ I, SquareImage n I → SquareImage n (G I))
    (D : List (Pt K Q)) : ∃ H, imageOne G s₀ s₁ step₀ step₁ w D = .ok H ∧ SquareImage n H := by
  have : Inhabited K := ⟨0⟩
  unfold imageOne
  dsimp only
  split
  · exact ⟨_, rfl, by rw [h₀.1]; exact squareImage_image2 n _⟩
  · rename_i hne
    rw [not_or] at hne
    have p0 : 0 < step₀ := lt_of_le_of_ne hs₀ (Ne.symm hne.1)
    have p1 : 0 < step₁ := lt_of_le_of_ne hs₁ (Ne.symm hne.2)
    rw [imageRaster_eq s₀ s₁ n lo₀ hi₀ step₀ lo₁ hi₁ step₁ (by omega) p0 p1 h₀ h₁ w hw D]
    simp only [ok_bind]
    refine ⟨_, rfl, ?_⟩
    obtain ⟨g, hg⟩ := (squareImage_iff n _).mp (hG _ (squareImage_image2 n fun (i j : Nat) =>
      ((imageCoords lo₀ hi₀ step₀ lo₁ hi₁ step₁ D).count ((i : Int), (j : Int)) : K) * (w[j]?).getD 0))
    rw [hg, h₀.1, rot90_image2, map_image2]
    exact squareImage_image2 n _

/-- The vectors of a fitted metric, one by one. -/
theorem vecs_eq (M : VecMetric Q) (q : Q) (h : VecMetricFitted M q) :
    ∃ (vec : List (Pt ℝ Q) → List ℝ) (m : Nat), (∀ D, (vec D).length = m) ∧ (∀ Y, M.vecs q Y = .ok (Y.map vec)) := by
  cases M with
  | betti s step =>
    refine ⟨fun D => (s q).map fun x => (aliveCount x D : ℝ), (s q).length, by simp, ?_⟩
    intro Y
    simp [VecMetric.vecs, bettiVecs, bettiCurves_eq, Function.comp_def]
  | heat G s step =>
    obtain ⟨n, lo, hi, hn, h0, hs, hG⟩ := h
    have hok : ∀ D : List (Pt ℝ Q), ∃ H, heatOne G (s q) (step q) D = .ok H ∧ SquareImage n H := by
      intro D
      obtain ⟨H, hH, h2, -⟩ := C30_heat_antisymmetric G (s q) n lo hi (step q) hn h0 hs hG D
      exact ⟨H, hH, h2⟩
    choose g hg using hok
    refine ⟨fun D => (g D).flatten, n * n, fun D => flatten_square (hg D).2, ?_⟩
    intro Y
    simp only [VecMetric.vecs, heatVecs]
    rw [mapM_ok (g := g) (fun D _ => (hg D).1)]
    simp [Function.comp_def]
  | image G w s₀ s₁ step₀ step₁ =>
    obtain ⟨n, lo₀, hi₀, lo₁, hi₁, hn, h0, hs0, h1, hs1, hG⟩ := h
    have hok := fun D : List (Pt ℝ Q) => imageOne_ok G (s₀ q) (s₁ q) n lo₀ hi₀ (step₀ q) lo₁ hi₁ (step₁ q) hn h0 h1 hs0 hs1 ((s₁ q).map w) (by rw [List.length_map]; exact hs1.1) hG D
    choose g hg using hok
    refine ⟨fun D => (g D).flatten, n * n, fun D => flatten_square (hg D).2, ?_⟩
    intro Y
    simp only [VecMetric.vecs, imageVecs]
    rw [mapM_ok (g := g) (fun D _ => (hg D).1)]
    simp [Function.comp_def]

theorem perDim_map {α β : Type} (F : Q → List (List (Pt ℝ Q)) → PyM (List α)) (h : α → β) (dims : List Q) (nJobs : Nat) (X : List (List (Pt ℝ Q))) (f : Q → List (Pt ℝ Q) → β)
    (hn : 1 ≤ nJobs) (hd : dims ≠ []) (hX : X ≠ []) (hE : ∀ q ∈ dims, EqualCounts X q)
    (hF : ∀ q ∈ dims, ∃ g : List (Pt ℝ Q) → α, (∀ Y, F q Y = .ok (Y.map g)) ∧ ∀ D, h (g D) = f q D) :
    (perDim F dims nJobs X).map (fun R => R.map fun r => r.map h) = .ok (X.map fun D => dims.map fun q => f q (pointsIn D q)) := by
  have : ∃ g : Q → List (Pt ℝ Q) → α, ∀ q ∈ dims, (∀ Y, F q Y = .ok (Y.map (g q))) ∧ ∀ D, h (g q D) = f q D := by
    classical
    have h' : ∀ q, ∃ g : List (Pt ℝ Q) → α, q ∈ dims → (∀ Y, F q Y = .ok (Y.map g)) ∧ ∀ D, h (g D) = f q D := by
      intro q
      by_cases hq : q ∈ dims
      · obtain ⟨g, hg⟩ := hF q hq
        exact ⟨g, fun _ => hg⟩
      · obtain ⟨q0, hq0⟩ := List.exists_mem_of_ne_nil dims hd
        obtain ⟨g, -⟩ := hF q0 hq0
        exact ⟨g, fun h => absurd h hq⟩
    choose g hg using h'
    exact ⟨g, hg⟩
  obtain ⟨g, hg⟩ := this
  rw [perDim_eq F g dims nJobs hn hd X hX hE]
  · simp only [Except.map, List.map_map, Function.comp_def]
    congr 1
    apply List.map_congr_left
    intro D _
    apply List.map_congr_left
    intro q hq
    exact (hg q hq).2 _
  · intro q hq Y _ _
    rw [(hg q hq).1, List.map_map]
    rfl

theorem representation_eq (M : VecMetric Q) (dims : List Q) (vec : Q → List (Pt ℝ Q) → List ℝ) (hv : ∀ q ∈ dims, ∀ Y, M.vecs q Y = .ok (Y.map (vec q))) (nJobs : Nat)
    (X : List (List (Pt ℝ Q))) (hn : 1 ≤ nJobs) (hd : dims ≠ []) (hX : X ≠ []) (hE : ∀ q ∈ dims, EqualCounts X q) :
    representation M dims nJobs X = .ok (X.map fun D => dims.map fun q => vec q (pointsIn D q)) := by
  have single : ∀ (f : List (Pt ℝ Q) → PyM (List (List ℝ))) (D : List (Pt ℝ Q)) (v : List ℝ), (do let h ← [D].mapM f; .ok (h.map List.flatten)) = (.ok [v] : PyM _) →
      ∃ H, f D = .ok H ∧ H.flatten = v := by
    intro f D v h
    cases hf : f D with
    | error e =>
      rw [List.mapM_cons, hf] at h
      cases h
    | ok H =>
      rw [List.mapM_cons, hf] at h
      simp only [ok_bind, List.mapM_nil] at h
      refine ⟨H, rfl, ?_⟩
      injection h with h
      simpa using h
  cases M with
  | betti s step =>
    unfold representation bettiTransform
    apply perDim_map _ _ dims nJobs X vec hn hd hX hE
    intro q hq
    refine ⟨fun D => (s q).map fun x => aliveCount x D, fun Y => by rw [bettiCurves_eq], ?_⟩
    intro D
    have := hv q hq [D]
    simp only [VecMetric.vecs, bettiVecs, bettiCurves_eq] at this
    injection this with this
    simpa using this
  | heat G s step =>
    unfold representation heatTransform
    apply perDim_map _ _ dims nJobs X vec hn hd hX hE
    intro q hq
    have hs := fun D => single (heatOne G (s q) (step q)) D (vec q D) (hv q hq [D])
    choose g hg using hs
    exact ⟨g, fun Y => mapM_ok (fun D _ => (hg D).1), fun D => (hg D).2⟩
  | image G w s₀ s₁ step₀ step₁ =>
    unfold representation imageTransform
    apply perDim_map _ _ dims nJobs X vec hn hd hX hE
    intro q hq
    have hs := fun D => single (imageOne G (s₀ q) (s₁ q) (step₀ q) (step₁ q) ((s₁ q).map w)) D (vec q D) (hv q hq [D])
    choose g hg using hs
    exact ⟨g, fun Y => mapM_ok (fun D _ => (hg D).1), fun D => (hg D).2⟩

theorem vecs_eq' (M : VecMetric Q) (dims : List Q) (h : ∀ q ∈ dims, VecMetricFitted M q) :
    ∃ (vec : Q → List (Pt ℝ Q) → List ℝ) (m : Q → Nat), ∀ q ∈ dims, (∀ D, (vec q D).length = m q) ∧ ∀ Y, M.vecs q Y = .ok (Y.map (vec q)) := by
  have h' : ∀ q, ∃ (vec : List (Pt ℝ Q) → List ℝ) (m : Nat), q ∈ dims → (∀ D, (vec D).length = m) ∧ (∀ Y, M.vecs q Y = .ok (Y.map vec)) := by
    intro q
    by_cases hq : q ∈ dims
    · obtain ⟨vec, m, h⟩ := vecs_eq M q (h q hq)
      exact ⟨vec, m, fun _ => h⟩
    · exact ⟨fun _ => [], 0, fun h => absurd h hq⟩
  choose vec m hv using h'
  exact ⟨vec, m, hv⟩

theorem stepFactor_eq (k : ℝ) (p : ENNReal) (step : ℝ) : stepFactor k p step = step ^ (k * (1 / p).toReal) := by
  unfold stepFactor
  split
  · rename_i h; subst h; simp
  · rw [ENNReal.toReal_div]
    simp [div_eq_mul_inv]

/-- The factor by which the Minkowski distance of order `p` is multiplied: a power of the size of a step or pixel. -/
noncomputable def stepPower (M : VecMetric Q) (p : ENNReal) (q : Q) : ℝ :=
  match M with
  | .betti _ step => step q ^ (1 / p).toReal
  | .heat _ _ step => step q ^ (2 * (1 / p).toReal)
  | .image _ _ _ _ step₀ step₁ => (step₀ q * step₁ q) ^ (1 / p).toReal

theorem factor_eq (M : VecMetric Q) (p : ENNReal) (q : Q) : M.factor p q = stepPower M p q := by
  cases M <;> simp [VecMetric.factor, stepPower, stepFactor_eq]

theorem stepPower_nonneg (M : VecMetric Q) (p : ENNReal) (q : Q) (h : VecMetricFitted M q) : 0 ≤ stepPower M p q := by
  cases M with
  | betti s step => exact Real.rpow_nonneg h _
  | heat G s step => obtain ⟨n, lo, hi, hn, h0, -⟩ := h; exact Real.rpow_nonneg h0 _
  | image G w s₀ s₁ step₀ step₁ => obtain ⟨n, lo₀, hi₀, lo₁, hi₁, hn, h0, hs0, h1, hs1, hG⟩ := h; exact Real.rpow_nonneg (mul_nonneg h0 h1) _

theorem lpDist_self (p : ENNReal) (hp : 0 < p) (u : List ℝ) : lpDist p u u = 0 := by
  rw [← lpDist_eq_norm p hp u u rfl]
  have : List.zipWith (· - ·) u u = [] ++ List.replicate u.length 0 := by
    rw [List.zipWith_self]
    simp
  rw [this, pNorm_zeros p hp, pNorm_eq p hp]
  unfold lpNorm
  by_cases ht : p = ⊤
  · subst ht
    rw [PiLp.norm_eq_ciSup]
    simp
  · have hpos : 0 < p.toReal := ENNReal.toReal_pos (ne_of_gt hp) ht
    rw [PiLp.norm_eq_sum hpos]
    simp [Real.zero_rpow (ne_of_gt (inv_pos.mpr hpos))]

theorem pNorm_sub_symm (p : ENNReal) (u v : List ℝ) : pNorm p (List.zipWith (· - ·) u v) = pNorm p (List.zipWith (· - ·) v u) := by
  have : (List.zipWith (· - ·) u v).map (fun x => |x|) = (List.zipWith (· - ·) v u).map fun x => |x| := by
    rw [List.map_zipWith, List.map_zipWith, List.zipWith_comm]
    simp only [abs_sub_comm]
  have h2 : ∀ l l' : List ℝ, l.map (fun x => |x|) = l'.map (fun x => |x|) → l.map (fun x => |x| ^ p.toReal) = l'.map fun x => |x| ^ p.toReal := by
    intro l l' h
    have := congrArg (fun l => l.map fun x => x ^ p.toReal) h
    simpa [List.map_map, Function.comp_def] using this
  unfold pNorm
  rw [this, h2 _ _ this]

/-- The distances computed for the metrics based on vectors. -/
theorem vecPairwise_gives (M : VecMetric Q) (p : ENNReal) (hp : 0 < p) (dims : List Q) (hd : dims ≠ []) (vec : Q → List (Pt ℝ Q) → List ℝ) (m : Q → Nat)
    (hv : ∀ q ∈ dims, (∀ D, (vec q D).length = m q) ∧ ∀ Y, M.vecs q Y = .ok (Y.map (vec q))) :
    GivesDistances (fun nJobs X₁ X₂ => vecPairwise M p dims nJobs X₁ X₂) dims Set.univ
      fun q D D' => minkowski p (M.factor p q) (vec q (pointsIn D q)) (vec q (pointsIn D' q)) := by
  apply givesDistances_of _ (fun q D D' => minkowski p (M.factor p q) (vec q D) (vec q D')) dims hd
  intro q hq Y₁ Y₂ _ _ _ _ _ _
  obtain ⟨hm, hv⟩ := hv q hq
  rw [batchDistances_eq 0 (M.vecs q) (vec q) _ _ _ (hv _) (hv _)]
  · simp [Function.comp_def]
  · intro a _ b _
    unfold minkowski
    rw [pNorm_sub_symm]
  · intro a _
    unfold minkowski
    rw [lpDist_eq_norm p hp _ _ rfl, lpDist_self p hp, zero_mul]

theorem minkowski_eq (p : ENNReal) (hp : 0 < p) (c : ℝ) (u v : List ℝ) (h : u.length = v.length) : minkowski p c u v = lpDist p u v * c := by
  unfold minkowski
  rw [lpDist_eq_norm p hp u v h]

/-! ### C33 -/

/-- **C33**, for any metric computing the matrix of distances of two batches entry by entry: the entry `[i, j, k]` of the output is the distance in the `k`-th homology dimension between
diagram `i` of the transformed collection and diagram `j` of the training collection, for every number of jobs. -/
theorem C33_assembly {R : Type} (metric : Q → List (List (Pt K Q)) → List (List (Pt K Q)) → PyM (List (List R)))
    (δ : Q → List (Pt K Q) → List (Pt K Q) → R) (dims : List Q) (hd : dims ≠ [])
    (hm : ∀ q ∈ dims, ∀ Y₁ Y₂, metric q Y₁ Y₂ = .ok (Y₁.map fun D => Y₂.map fun D' => δ q D D')) :
    GivesDistances (fun nJobs X₁ X₂ => parallelPairwise metric X₁ X₂ dims nJobs) dims Set.univ fun q D D' => δ q (pointsIn D q) (pointsIn D' q) := by
  apply givesDistances_of metric δ dims hd
  intro q hq Y₁ Y₂ _ _ _ _ _ _
  rw [hm q hq]
  simp [Function.comp_def]

/-- **C33**, `metric="betti"`, `"heat"`, `"persistence_image"`: entry `[i, j, k]` is the Minkowski distance of order `p` between the vectors which the corresponding transformer
(`BettiCurve`, `HeatKernel`, `PersistenceImage` with the same fitted samplings) outputs at `[i, k]` for the collection to transform and at `[j, k]` for the training collection, times a power of the step size;
with any number of jobs, and also if the shortcut for equal arrays is taken. -/
theorem C33_vectorised (M : VecMetric Q) (p : ENNReal) (hp : 0 < p) (dims : List Q) (hd : dims ≠ []) (hM : ∀ q ∈ dims, VecMetricFitted M q)
    (nJobs nJobs' : Nat) (X₁ X₂ : List (List (Pt ℝ Q))) (hn : 1 ≤ nJobs) (hn' : 1 ≤ nJobs') (h1 : X₁ ≠ []) (h2 : X₂ ≠ []) (hE1 : ∀ q ∈ dims, EqualCounts X₁ q) (hE2 : ∀ q ∈ dims, EqualCounts X₂ q) :
    ∃ A V₁ V₂, vecPairwise M p dims nJobs X₁ X₂ = .ok A ∧ representation M dims nJobs' X₁ = .ok V₁ ∧ representation M dims nJobs' X₂ = .ok V₂ ∧
      A.length = X₁.length ∧ (∀ r ∈ A, r.length = X₂.length ∧ ∀ c ∈ r, c.length = dims.length) ∧
      ∀ (i j k : Nat) q, i < X₁.length → j < X₂.length → dims[k]? = some q →
        ∃ u v, entry2 V₁ i k = some u ∧ entry2 V₂ j k = some v ∧ u.length = v.length ∧ entry3 A i j k = some (lpDist p u v * stepPower M p q) := by
  obtain ⟨vec, m, hv⟩ := vecs_eq' M dims hM
  obtain ⟨A, hA, hl, hsh, hent⟩ := vecPairwise_gives M p hp dims hd vec m hv nJobs X₁ X₂ hn h1 h2 hE1 hE2 (fun _ _ => Set.mem_univ _) (fun _ _ => Set.mem_univ _)
  refine ⟨A, _, _, hA, representation_eq M dims vec (fun q hq => (hv q hq).2) nJobs' X₁ hn' hd h1 hE1, representation_eq M dims vec (fun q hq => (hv q hq).2) nJobs' X₂ hn' hd h2 hE2, hl, hsh, ?_⟩
  intro i j k q hi hj hk
  have hq : q ∈ dims := List.mem_of_getElem? hk
  have e1 := List.getElem?_eq_getElem hi
  have e2 := List.getElem?_eq_getElem hj
  refine ⟨vec q (pointsIn X₁[i] q), vec q (pointsIn X₂[j] q), ?_, ?_, ?_, ?_⟩
  · simp [entry2, List.getElem?_map, e1, hk]
  · simp [entry2, List.getElem?_map, e2, hk]
  · rw [(hv q hq).1, (hv q hq).1]
  · rw [hent i j k _ _ q e1 e2 hk]
    dsimp only
    rw [minkowski_eq p hp _ _ _ (by rw [(hv q hq).1, (hv q hq).1]), factor_eq]

/-- **C33**, `metric="bottleneck"`, `"wasserstein"`: entry `[i, j, k]` is the distance computed by the external library for the off-diagonal points of the two subdiagrams, in this
order; it does not change if diagonal points are added to or removed from the diagrams. -/
theorem C33_matching {R : Type} [DecidableEq K] (engine : List (Pt K Q) → List (Pt K Q) → R) (dims : List Q) (hd : dims ≠ []) :
    GivesDistances (fun nJobs X₁ X₂ => matchingPairwise engine dims nJobs X₁ X₂) dims Set.univ
      fun q D D' => engine (offDiag (pointsIn D q)) (offDiag (pointsIn D' q)) :=
  C33_assembly _ (fun _ D D' => engine (offDiag D) (offDiag D')) dims hd fun _ _ _ _ => rfl

/-! ### C35 -/

/-- All `n` layers of a landscape in one vector. -/
noncomputable def layerVec (sampling : List ℝ) (n : Nat) (D : List (Pt ℝ Q)) : List ℝ := ((List.range n).map fun k => sampling.map fun s => layerAt D k s).flatten

theorem layerVec_length (sampling : List ℝ) (n : Nat) (D : List (Pt ℝ Q)) : (layerVec sampling n D).length = n * sampling.length := by
  unfold layerVec
  rw [Gtda.length_flatten_uniform _ sampling.length (by simp)]
  simp

theorem layerVec_beyond (sampling : List ℝ) (m n : Nat) (D : List (Pt ℝ Q)) (hmn : m ≤ n) (hD : min n D.length ≤ m) :
    layerVec sampling n D = layerVec sampling m D ++ List.replicate ((n - m) * sampling.length) 0 := by
  unfold layerVec
  obtain ⟨c, rfl⟩ := Nat.exists_eq_add_of_le hmn
  rw [List.range_add, List.map_append, List.flatten_append, Nat.add_sub_cancel_left]
  congr 1
  rw [List.eq_replicate_iff]
  constructor
  · rw [Gtda.length_flatten_uniform _ sampling.length (by simp)]
    simp
  · intro x hx
    rw [List.mem_flatten] at hx
    obtain ⟨l, hl, hx⟩ := hx
    simp only [List.mem_map, List.mem_range] at hl
    obtain ⟨k, ⟨a, ha, rfl⟩, rfl⟩ := hl
    rw [List.mem_map] at hx
    obtain ⟨s, -, rfl⟩ := hx
    apply layerAt_beyond
    rcases Nat.le_total (m + c) D.length with h | h
    · rw [min_eq_left h] at hD; omega
    · rw [min_eq_right h] at hD; omega

theorem flatLandscapes_eq (Y : List (List (Pt ℝ Q))) (sampling : List ℝ) (n m : Nat) (hY : ∀ D ∈ Y, D.length = m) :
    flatLandscapes Y sampling n = Y.map (layerVec sampling n) := by
  unfold flatLandscapes
  rw [landscapes_eq Y sampling n m hY, List.map_map]
  rfl

theorem minkowski_pad (p : ENNReal) (hp : 0 < p) (c : ℝ) (u v : List ℝ) (h : u.length = v.length) (k : Nat) :
    minkowski p c (u ++ List.replicate k 0) (v ++ List.replicate k 0) = minkowski p c u v := by
  unfold minkowski
  rw [List.zipWith_append h]
  have : List.zipWith (· - ·) (List.replicate k (0 : ℝ)) (List.replicate k 0) = List.replicate k 0 := by simp
  rw [this, pNorm_zeros p hp]

theorem landscapeDistances_eq (p : ENNReal) (hp : 0 < p) (c : ℝ) (sampling : List ℝ) (n : Nat) (Y₁ Y₂ : List (List (Pt ℝ Q))) (m₁ m₂ : Nat) (h1 : Y₁ ≠ []) (h2 : Y₂ ≠ [])
    (hY1 : ∀ D ∈ Y₁, D.length = m₁) (hY2 : ∀ D ∈ Y₂, D.length = m₂) :
    landscapeDistances (minkowski p c) sampling n Y₁ Y₂ = Y₁.map fun D => Y₂.map fun D' => minkowski p c (layerVec sampling n D) (layerVec sampling n D') := by
  have hh1 : (Y₁.headD []).length = m₁ := by
    obtain ⟨D, t, rfl⟩ := List.exists_cons_of_ne_nil h1
    exact hY1 D List.mem_cons_self
  have hh2 : (Y₂.headD []).length = m₂ := by
    obtain ⟨D, t, rfl⟩ := List.exists_cons_of_ne_nil h2
    exact hY2 D List.mem_cons_self
  have key : ∀ (m : Nat) (D D' : List (Pt ℝ Q)), m ≤ n → min n D.length ≤ m → min n D'.length ≤ m →
      minkowski p c (layerVec sampling m D) (layerVec sampling m D') = minkowski p c (layerVec sampling n D) (layerVec sampling n D') := by
    intro m D D' hm hD hD'
    rw [layerVec_beyond sampling m n D hm hD, layerVec_beyond sampling m n D' hm hD', minkowski_pad p hp c _ _ (by rw [layerVec_length, layerVec_length])]
  unfold landscapeDistances
  dsimp only
  rw [hh1, hh2]
  split
  · rename_i h
    subst h
    rw [flatLandscapes_eq _ _ _ m₁ hY1, squarePdist_eq, List.map_map]
    · apply List.map_congr_left
      intro D hD
      simp only [Function.comp]
      rw [List.map_map]
      apply List.map_congr_left
      intro D' hD'
      simp only [Function.comp]
      exact key _ _ _ (min_le_left _ _) (by rw [hY1 D hD]) (by rw [hY1 D' hD'])
    · intro a _ b _
      unfold minkowski
      rw [pNorm_sub_symm]
    · intro a _
      unfold minkowski
      rw [lpDist_eq_norm p hp _ _ rfl, lpDist_self p hp, zero_mul]
  · rw [flatLandscapes_eq _ _ _ m₁ hY1, flatLandscapes_eq _ _ _ m₂ hY2, List.map_map]
    apply List.map_congr_left
    intro D hD
    simp only [Function.comp]
    rw [List.map_map]
    apply List.map_congr_left
    intro D' hD'
    simp only [Function.comp]
    refine key _ _ _ (max_le (min_le_left _ _) (min_le_left _ _)) ?_ ?_
    · rw [hY1 D hD]; exact le_max_left _ _
    · rw [hY2 D' hD']; exact le_max_right _ _

theorem pointsIn_length_of_equalCounts (Y : List (List (Pt ℝ Q))) (q : Q) (hY : Y ≠ []) (h : EqualCounts Y q) : ∃ m, ∀ D ∈ Y.map (fun D => pointsIn D q), D.length = m := by
  obtain ⟨D0, t, rfl⟩ := List.exists_cons_of_ne_nil hY
  refine ⟨(pointsIn D0 q).length, ?_⟩
  intro D hD
  rw [List.mem_map] at hD
  obtain ⟨D, hD, rfl⟩ := hD
  exact h D hD D0 List.mem_cons_self

theorem landscapePairwise_gives (p : ENNReal) (hp : 0 < p) (n : Nat) (sampling : Q → List ℝ) (step : Q → ℝ) (dims : List Q) (hd : dims ≠ []) :
    GivesDistances (fun nJobs X₁ X₂ => landscapePairwise p n sampling step dims nJobs X₁ X₂) dims Set.univ
      fun q D D' => minkowski p (stepFactor 1 p (step q)) (layerVec (sampling q) n (pointsIn D q)) (layerVec (sampling q) n (pointsIn D' q)) := by
  apply givesDistances_of _ (fun q D D' => minkowski p (stepFactor 1 p (step q)) (layerVec (sampling q) n D) (layerVec (sampling q) n D')) dims hd
  intro q hq Y₁ Y₂ hY1 hY2 _ _ hE1 hE2
  obtain ⟨m₁, hm1⟩ := pointsIn_length_of_equalCounts Y₁ q hY1 hE1
  obtain ⟨m₂, hm2⟩ := pointsIn_length_of_equalCounts Y₂ q hY2 hE2
  rw [landscapeDistances_eq p hp _ _ n _ _ m₁ m₂ (by simpa using hY1) (by simpa using hY2) hm1 hm2]
  simp [Function.comp_def]

/-- **C33** and **C35** for `metric="landscape"`: entry `[i, j, k]` is the Minkowski distance of order `p` between all `n_layers` layers, with no truncation, which
`PersistenceLandscape(n_layers)` restricted to the `k`-th homology dimension outputs for diagram `i` of the collection to transform and `j` of the training collection, times `step ** (1 / p)`. -/
theorem C35_landscape_distances (p : ENNReal) (hp : 0 < p) (n : Nat) (sampling : Q → List ℝ) (step : Q → ℝ) (dims : List Q) (hd : dims ≠ [])
    (nJobs nJobs' : Nat) (X₁ X₂ : List (List (Pt ℝ Q))) (hn : 1 ≤ nJobs) (hn' : 1 ≤ nJobs') (h1 : X₁ ≠ []) (h2 : X₂ ≠ []) (hE1 : ∀ q ∈ dims, EqualCounts X₁ q) (hE2 : ∀ q ∈ dims, EqualCounts X₂ q) :
    ∃ A, landscapePairwise p n sampling step dims nJobs X₁ X₂ = .ok A ∧
      A.length = X₁.length ∧ (∀ r ∈ A, r.length = X₂.length ∧ ∀ c ∈ r, c.length = dims.length) ∧
      ∀ (i j k : Nat) q, i < X₁.length → j < X₂.length → dims[k]? = some q →
        ∃ L₁ L₂ u v, landscapeTransform [q] sampling n nJobs' X₁ = .ok L₁ ∧ landscapeTransform [q] sampling n nJobs' X₂ = .ok L₂ ∧ L₁[i]? = some u ∧ L₂[j]? = some v ∧
          u.length = n ∧ v.length = n ∧ (∀ l ∈ u, l.length = (sampling q).length) ∧ (∀ l ∈ v, l.length = (sampling q).length) ∧
          entry3 A i j k = some (lpDist p u.flatten v.flatten * step q ^ (1 / p).toReal) := by
  obtain ⟨A, hA, hl, hsh, hent⟩ := landscapePairwise_gives p hp n sampling step dims hd nJobs X₁ X₂ hn h1 h2 hE1 hE2 (fun _ _ => Set.mem_univ _) (fun _ _ => Set.mem_univ _)
  refine ⟨A, hA, hl, hsh, ?_⟩
  intro i j k q hi hj hk
  have hq : q ∈ dims := List.mem_of_getElem? hk
  have e1 := List.getElem?_eq_getElem hi
  have e2 := List.getElem?_eq_getElem hj
  have hsub : ∀ q' ∈ [q], q' ∈ dims := by simpa using hq
  refine ⟨_, _, (List.range n).map fun k => (sampling q).map fun s => layerAt (pointsIn X₁[i] q) k s, (List.range n).map fun k => (sampling q).map fun s => layerAt (pointsIn X₂[j] q) k s,
    landscapeTransform_eq [q] sampling n nJobs' X₁ hn' (by simp) h1 (fun q' h => hE1 q' (hsub q' h)),
    landscapeTransform_eq [q] sampling n nJobs' X₂ hn' (by simp) h2 (fun q' h => hE2 q' (hsub q' h)), ?_, ?_, by simp, by simp, by simp, by simp, ?_⟩
  · simp [List.getElem?_map, e1]
  · simp [List.getElem?_map, e2]
  · rw [hent i j k _ _ q e1 e2 hk]
    dsimp only
    rw [minkowski_eq p hp _ _ _ (by rw [layerVec_length, layerVec_length]), stepFactor_eq, one_mul]
    rfl

/-! ### C34 -/

theorem minkowski_pseudo {α : Type} (p : ENNReal) (hp : 1 ≤ p) (c : ℝ) (hc : 0 ≤ c) (vec : α → List ℝ) (m : Nat) (S : Set α) (hv : ∀ x ∈ S, (vec x).length = m) :
    PseudometricOn S fun x y => minkowski p c (vec x) (vec y) := by
  have hpos : 0 < p := lt_of_lt_of_le one_pos hp
  have h := (lpDist_pseudo p hp m).comap vec S hv c hc
  have e : ∀ x ∈ S, ∀ y ∈ S, minkowski p c (vec x) (vec y) = lpDist p (vec x) (vec y) * c :=
    fun x hx y hy => minkowski_eq p hpos c _ _ (by rw [hv x hx, hv y hy])
  constructor
  · intro x hx y hy; rw [e x hx y hy]; exact h.nonneg x hx y hy
  · intro x hx; rw [e x hx x hx]; exact h.zero x hx
  · intro x hx y hy; rw [e x hx y hy, e y hy x hx]; exact h.symm x hx y hy
  · intro x hx y hy z hz; rw [e x hx z hz, e x hx y hy, e y hy z hz]; exact h.triangle x hx y hy z hz

/-- **C34**, `metric="betti"`, `"heat"`, `"persistence_image"`, `order=None`: for every `p` in `[1, ∞]`, in every homology dimension, the output is a pseudometric on the set of all
diagrams. -/
theorem C34_vectorised (M : VecMetric Q) (p : ENNReal) (hp : 1 ≤ p) (dims : List Q) (hd : dims ≠ []) (hM : ∀ q ∈ dims, VecMetricFitted M q) :
    ∃ δ, GivesDistances (fun nJobs X₁ X₂ => vecPairwise M p dims nJobs X₁ X₂) dims Set.univ δ ∧ ∀ q ∈ dims, PseudometricOn Set.univ (δ q) := by
  obtain ⟨vec, m, hv⟩ := vecs_eq' M dims hM
  refine ⟨_, vecPairwise_gives M p (lt_of_lt_of_le one_pos hp) dims hd vec m hv, ?_⟩
  intro q hq
  apply minkowski_pseudo p hp _ (by rw [factor_eq]; exact stepPower_nonneg M p q (hM q hq)) (fun D => vec q (pointsIn D q)) (m q)
  intro D _
  exact (hv q hq).1 _

/-- **C34**, `metric="landscape"`, `order=None`. -/
theorem C34_landscape (p : ENNReal) (hp : 1 ≤ p) (n : Nat) (sampling : Q → List ℝ) (step : Q → ℝ) (dims : List Q) (hd : dims ≠ []) (hs : ∀ q ∈ dims, 0 ≤ step q) :
    ∃ δ, GivesDistances (fun nJobs X₁ X₂ => landscapePairwise p n sampling step dims nJobs X₁ X₂) dims Set.univ δ ∧ ∀ q ∈ dims, PseudometricOn Set.univ (δ q) := by
  refine ⟨_, landscapePairwise_gives p (lt_of_lt_of_le one_pos hp) n sampling step dims hd, ?_⟩
  intro q hq
  apply minkowski_pseudo p hp _ (by rw [stepFactor_eq]; exact Real.rpow_nonneg (hs q hq) _) (fun D => layerVec (sampling q) n (pointsIn D q)) (n * (sampling q).length)
  intro D _
  exact layerVec_length _ _ _

theorem mapM_id_some {α : Type} (l : List α) : (l.map some).mapM id = some l := by
  induction l with
  | nil => rfl
  | cons a t ih => rw [List.map_cons, List.mapM_cons, ih]; rfl

/-- Diagrams with birth ≤ death for all points, and (needed if the power exceeds 8) an off-diagonal point in each homology dimension. -/
def SilhouetteDefined (power : ℝ) (dims : List Q) : Set (List (Pt ℝ Q)) := {D | (∀ p ∈ D, p.b ≤ p.d) ∧ (8 < power → ∀ q ∈ dims, ∃ p ∈ D, p.q = q ∧ p.b ≠ p.d)}

theorem silhouetteVecs_eq (power : ℝ) (h0 : 0 < power) (sampling : List ℝ) (dims : List Q) (q : Q) (hq : q ∈ dims) (Y : List (List (Pt ℝ Q))) (hY : ∀ D ∈ Y, D ∈ SilhouetteDefined power dims) :
    silhouetteVecs power sampling (Y.map fun D => pointsIn D q) = .ok ((Y.map fun D => pointsIn D q).map fun D => sampling.map fun s => some (weightedTents (fun x => x ^ power) D s)) := by
  apply mapM_ok
  intro D hD
  rw [List.mem_map] at hD
  obtain ⟨D, hD, rfl⟩ := hD
  apply silhouetteOne_eq (powLike_rpow power h0)
  · intro p hp
    exact (hY D hD).1 p (by simp [pointsIn] at hp; exact hp.1)
  · intro hb
    obtain ⟨p, hp, hpq, hne⟩ := (hY D hD).2 (by simpa using hb) q hq
    exact ⟨p, by simp [pointsIn, hp, hpq], hne⟩

theorem silhouettePairwise_gives (p : ENNReal) (hp : 0 < p) (power : ℝ) (h0 : 0 < power) (sampling : Q → List ℝ) (step : Q → ℝ) (dims : List Q) (hd : dims ≠ []) :
    GivesDistances (fun nJobs X₁ X₂ => silhouettePairwise p power sampling step dims nJobs X₁ X₂) dims (SilhouetteDefined power dims)
      fun q D D' => some (minkowski p (stepFactor 1 p (step q)) ((sampling q).map (weightedTents (fun x => x ^ power) (pointsIn D q))) ((sampling q).map (weightedTents (fun x => x ^ power) (pointsIn D' q)))) := by
  apply givesDistances_of _ (fun q D D' => some (minkowski p (stepFactor 1 p (step q)) ((sampling q).map (weightedTents (fun x => x ^ power) D)) ((sampling q).map (weightedTents (fun x => x ^ power) D')))) dims hd
  intro q hq Y₁ Y₂ _ _ hS1 hS2 _ _
  have hlift : ∀ D D' : List (Pt ℝ Q), liftNan₂ (minkowski p (stepFactor 1 p (step q))) ((sampling q).map fun s => some (weightedTents (fun x => x ^ power) D s))
      ((sampling q).map fun s => some (weightedTents (fun x => x ^ power) D' s)) =
      some (minkowski p (stepFactor 1 p (step q)) ((sampling q).map (weightedTents (fun x => x ^ power) D)) ((sampling q).map (weightedTents (fun x => x ^ power) D'))) := by
    intro D D'
    unfold liftNan₂
    have : ∀ D : List (Pt ℝ Q), ((sampling q).map fun s => some (weightedTents (fun x => x ^ power) D s)) = ((sampling q).map (weightedTents (fun x => x ^ power) D)).map some := by
      intro D; rw [List.map_map]; rfl
    rw [this, this, mapM_id_some, mapM_id_some]
    rfl
  rw [batchDistances_eq (some 0) _ (fun D => (sampling q).map fun s => some (weightedTents (fun x => x ^ power) D s)) _ _ _
    (silhouetteVecs_eq power h0 (sampling q) dims q hq Y₁ hS1) (silhouetteVecs_eq power h0 (sampling q) dims q hq Y₂ hS2)]
  · simp [Function.comp_def, hlift]
  · intro a _ b _
    rw [hlift, hlift]
    unfold minkowski
    rw [pNorm_sub_symm]
  · intro a _
    rw [hlift]
    unfold minkowski
    rw [lpDist_eq_norm p hp _ _ rfl, lpDist_self p hp, zero_mul]

/-- **C34**, `metric="silhouette"`, `order=None`, partial: on the diagrams whose silhouettes are defined. Missing: diagrams with only diagonal points for `power > 8`, whose
silhouettes are NaN (`C29_refuted_trivial`). -/
theorem C34_silhouette_partial (p : ENNReal) (hp : 1 ≤ p) (power : ℝ) (h0 : 0 < power) (sampling : Q → List ℝ) (step : Q → ℝ) (dims : List Q) (hd : dims ≠ []) (hs : ∀ q ∈ dims, 0 ≤ step q) :
    ∃ δ : Q → List (Pt ℝ Q) → List (Pt ℝ Q) → ℝ, GivesDistances (fun nJobs X₁ X₂ => silhouettePairwise p power sampling step dims nJobs X₁ X₂) dims (SilhouetteDefined power dims) (fun q D D' => some (δ q D D')) ∧
      ∀ q ∈ dims, PseudometricOn (SilhouetteDefined power dims) (δ q) := by
  refine ⟨fun q D D' => minkowski p (stepFactor 1 p (step q)) ((sampling q).map (weightedTents (fun x => x ^ power) (pointsIn D q))) ((sampling q).map (weightedTents (fun x => x ^ power) (pointsIn D' q))),
    silhouettePairwise_gives p (lt_of_lt_of_le one_pos hp) power h0 sampling step dims hd, ?_⟩
  intro q hq
  apply minkowski_pseudo p hp _ (by rw [stepFactor_eq]; exact Real.rpow_nonneg (hs q hq) _) (fun D => (sampling q).map (weightedTents (fun x => x ^ power) (pointsIn D q))) (sampling q).length
  intro D _
  simp

/-- **C34**, `order ≥ 1`: if the output for `order=None` is a pseudometric in every homology dimension (`C34_vectorised`, `C34_landscape`), then the aggregated output, the norm of
order `order` of the vectors of distances in all dimensions, is a pseudometric. -/
theorem C34_aggregated (T : Nat → List (List (Pt ℝ Q)) → List (List (Pt ℝ Q)) → PyM (List (List (List ℝ)))) (dims : List Q) (S : Set (List (Pt ℝ Q))) (δ : Q → List (Pt ℝ Q) → List (Pt ℝ Q) → ℝ)
    (hT : GivesDistances T dims S δ) (hδ : ∀ q ∈ dims, PseudometricOn S (δ q)) (order : ENNReal) (ho : 1 ≤ order) :
    ∃ Δ : List (Pt ℝ Q) → List (Pt ℝ Q) → ℝ, PseudometricOn S Δ ∧ (∀ D D', Δ D D' = lpNorm order (dims.map fun q => δ q D D')) ∧
      ∀ nJobs X₁ X₂, 1 ≤ nJobs → X₁ ≠ [] → X₂ ≠ [] → (∀ q ∈ dims, EqualCounts X₁ q) → (∀ q ∈ dims, EqualCounts X₂ q) → (∀ D ∈ X₁, D ∈ S) → (∀ D ∈ X₂, D ∈ S) →
        ∃ A, (T nJobs X₁ X₂).map (aggregate order) = .ok A ∧ A.length = X₁.length ∧ (∀ r ∈ A, r.length = X₂.length) ∧
          ∀ (i j : Nat) D D', X₁[i]? = some D → X₂[j]? = some D' → entry2 A i j = some (Δ D D') := by
  refine ⟨_, lpNorm_pseudo order ho dims S δ hδ, fun _ _ => rfl, ?_⟩
  intro nJobs X₁ X₂ hn h1 h2 hE1 hE2 hS1 hS2
  obtain ⟨A, hA, hl, hsh, hent⟩ := hT nJobs X₁ X₂ hn h1 h2 hE1 hE2 hS1 hS2
  refine ⟨aggregate order A, by rw [hA]; rfl, by simp [aggregate, hl], ?_, ?_⟩
  · intro r hr
    unfold aggregate at hr
    rw [List.mem_map] at hr
    obtain ⟨r, hr, rfl⟩ := hr
    rw [List.length_map]
    exact (hsh r hr).1
  · intro i j D D' hi hj
    rw [aggregate_entries hsh hl hent order i j D D' hi hj, pNorm_eq order (lt_of_lt_of_le one_pos ho)]

/-- **C34**, `metric="silhouette"` with `order ≥ 1`, partial as `C34_silhouette_partial`. -/
theorem C34_silhouette_aggregated_partial (p : ENNReal) (hp : 1 ≤ p) (power : ℝ) (h0 : 0 < power) (sampling : Q → List ℝ) (step : Q → ℝ) (dims : List Q) (hd : dims ≠ [])
    (hs : ∀ q ∈ dims, 0 ≤ step q) (order : ENNReal) (ho : 1 ≤ order) :
    ∃ Δ : List (Pt ℝ Q) → List (Pt ℝ Q) → ℝ, PseudometricOn (SilhouetteDefined power dims) Δ ∧
      ∀ nJobs X₁ X₂, 1 ≤ nJobs → X₁ ≠ [] → X₂ ≠ [] → (∀ q ∈ dims, EqualCounts X₁ q) → (∀ q ∈ dims, EqualCounts X₂ q) → (∀ D ∈ X₁, D ∈ SilhouetteDefined power dims) →
        (∀ D ∈ X₂, D ∈ SilhouetteDefined power dims) →
        ∃ A, (silhouettePairwise p power sampling step dims nJobs X₁ X₂).map (aggregateNan order) = .ok A ∧
          ∀ (i j : Nat) D D', X₁[i]? = some D → X₂[j]? = some D' → entry2 A i j = some (some (Δ D D')) := by
  obtain ⟨δ, hT, hδ⟩ := C34_silhouette_partial p hp power h0 sampling step dims hd hs
  refine ⟨_, lpNorm_pseudo order ho dims _ δ hδ, ?_⟩
  intro nJobs X₁ X₂ hn h1 h2 hE1 hE2 hS1 hS2
  obtain ⟨A, hA, hl, hsh, hent⟩ := hT nJobs X₁ X₂ hn h1 h2 hE1 hE2 hS1 hS2
  dsimp only at hA
  refine ⟨aggregateNan order A, by rw [hA]; rfl, ?_⟩
  intro i j D D' hi hj
  have := aggregate_entries' hsh hl hent (liftNan (pNorm order)) i j D D' hi hj
  have e : liftNan (pNorm order) (dims.map fun q => some (δ q D D')) = some (lpNorm order (dims.map fun q => δ q D D')) := by
    have : (dims.map fun q => some (δ q D D')) = (dims.map fun q => δ q D D').map some := by rw [List.map_map]; rfl
    rw [liftNan, this, mapM_id_some, Option.map_some, pNorm_eq order (lt_of_lt_of_le one_pos ho)]
  rw [e] at this
  exact this

/-- **C34** is false for the allowed orders below 1: with `order=0.5`, Betti curves sampled at 0 with step 1, `p=1` and dimensions 0 and 1, the distance between a diagram with one point
alive in each dimension and an empty one is 4, but via a diagram with a point in dimension 0 only it is 1 + 1. -/
theorem C34_refuted_order :
    ∃ (D₁ D₂ D₃ : List (Pt ℝ Nat)) (A : List (List ℝ)),
      (vecPairwise (.betti (fun _ => [0]) (fun _ => 1)) 1 [0, 1] 1 [D₁, D₂, D₃] [D₁, D₂, D₃]).map (aggregate (ENNReal.ofReal (1 / 2))) = .ok A ∧
      ∃ d12 d23 d13, entry2 A 0 1 = some d12 ∧ entry2 A 1 2 = some d23 ∧ entry2 A 0 2 = some d13 ∧ d12 + d23 < d13 := by
  have hM : ∀ q ∈ [0, 1], VecMetricFitted (Q := Nat) (.betti (fun _ => [0]) (fun _ => 1)) q := fun _ _ => zero_le_one
  have hE : ∀ q ∈ [0, 1], EqualCounts ([[⟨0, 1, 0⟩, ⟨0, 1, 1⟩], [⟨0, 1, 0⟩, ⟨0, 0, 1⟩], [⟨0, 0, 0⟩, ⟨0, 0, 1⟩]] : List (List (Pt ℝ Nat))) q := by
    intro q hq
    simp only [List.mem_cons, List.not_mem_nil, or_false] at hq
    rcases hq with rfl | rfl <;> simp [EqualCounts, pointsIn]
  have hgive := vecPairwise_gives (Q := Nat) (.betti (fun _ => [0]) (fun _ => 1)) 1 one_pos [0, 1] (by simp) (fun q D => [(aliveCount 0 D : ℝ)]) (fun _ => 1)
    (by intro q _; refine ⟨by simp, fun Y => by simp [VecMetric.vecs, bettiVecs, bettiCurves_eq, Function.comp_def]⟩)
    1 _ _ le_rfl (by simp) (by simp) hE hE (fun _ _ => Set.mem_univ _) (fun _ _ => Set.mem_univ _)
  obtain ⟨A, hA, hl, hsh, hent⟩ := hgive
  dsimp only at hA
  refine ⟨[⟨0, 1, 0⟩, ⟨0, 1, 1⟩], [⟨0, 1, 0⟩, ⟨0, 0, 1⟩], [⟨0, 0, 0⟩, ⟨0, 0, 1⟩], aggregate (ENNReal.ofReal (1 / 2)) A, by rw [hA]; rfl, ?_⟩
  have key := fun i j D D' hi hj => aggregate_entries hsh hl hent (ENNReal.ofReal (1 / 2)) i j D D' hi hj
  refine ⟨_, _, _, key 0 1 _ _ rfl rfl, key 1 2 _ _ rfl rfl, key 0 2 _ _ rfl rfl, ?_⟩
  have hne : (1 : ENNReal) ≠ ⊤ := by simp
  have h12 : ENNReal.ofReal (1 / 2) ≠ ⊤ := ENNReal.ofReal_ne_top
  have ht : (ENNReal.ofReal (1 / 2)).toReal = 1 / 2 := ENNReal.toReal_ofReal (by norm_num)
  simp only [List.map_cons, List.map_nil, minkowski, VecMetric.factor, stepFactor, pNorm, if_neg hne, if_neg h12, ht, pointsIn, aliveCount]
  have h0 : (0 : ℝ) ^ (1 / 2 : ℝ) = 0 := Real.zero_rpow (by norm_num)
  have h2 : (1 / (1 / 2) : ℝ) = (2 : ℕ) := by norm_num
  have h1 : (1 : ENNReal).toReal = 1 := rfl
  simp [h1, h0, h2, -one_div, Real.rpow_natCast]
  norm_num

/-! ### Instances of the hypotheses -/

example : VecMetricFitted (Q := Nat) (.heat id (fun _ => [0, 1, 2]) (fun _ => 1)) 0 := by
  refine ⟨3, 0, 2, by norm_num, zero_le_one, ⟨rfl, rfl, rfl, ?_⟩, fun I h => h⟩
  intro i x y h1 h2
  rcases i with _ | _ | _ | i <;> simp at h1 h2
  · rw [← h1, ← h2]; norm_num
  · rw [← h1, ← h2]; norm_num

example : ([⟨0, 1, 0⟩, ⟨1, 3, 1⟩] : List (Pt ℝ Nat)) ∈ SilhouetteDefined 9 [0, 1] := by
  refine ⟨by simp, fun _ q hq => ?_⟩
  simp only [List.mem_cons, List.not_mem_nil, or_false] at hq
  rcases hq with rfl | rfl
  · exact ⟨⟨0, 1, 0⟩, by simp, rfl, by norm_num⟩
  · exact ⟨⟨1, 3, 1⟩, by simp, rfl, by norm_num⟩

/-- Two collections of different sizes, two jobs, an engine counting points: the output array. -/
example : matchingPairwise (fun A B => (A.length, B.length)) [0, 1] 2
    ([[⟨0, 1, 0⟩, ⟨0, 1, 1⟩, ⟨2, 2, 1⟩], [⟨3, 3, 0⟩, ⟨0, 1, 1⟩, ⟨2, 3, 1⟩]] : List (List (Pt ℚ Nat)))
    [[⟨0, 1, 0⟩, ⟨0, 1, 1⟩], [⟨0, 0, 0⟩, ⟨0, 1, 1⟩], [⟨0, 5, 0⟩, ⟨1, 1, 1⟩]] =
    .ok [[[(1, 1), (1, 1)], [(1, 0), (1, 1)], [(1, 1), (1, 0)]], [[(0, 1), (2, 1)], [(0, 0), (2, 1)], [(0, 1), (2, 0)]]] := by decide +kernel

end Gtda.Props
