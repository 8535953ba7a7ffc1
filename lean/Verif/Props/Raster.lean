import Verif.Lemmas.Raster
import Verif.Spec.Raster
import Verif.Props.Curves
import Verif.Props.Samplings

set_option autoImplicit false
set_option linter.unusedSectionVars false

/-!
# C30, C31: heat kernels and persistence images
-/

namespace Gtda.Props
open Gtda.Py Gtda.Parallel Gtda.Diagrams

theorem squareImage_image2 {α : Type} (n : Nat) (f : Nat → Nat → α) : SquareImage n (image2 n f) := by
  simp [SquareImage, image2]

theorem squareImage_iff {α : Type} [Inhabited α] (n : Nat) (I : List (List α)) : SquareImage n I ↔ ∃ f, I = image2 n f := by
  constructor
  · rintro ⟨h1, h2⟩
    refine ⟨fun i j => ((I[i]?.getD [])[j]?).getD default, ?_⟩
    unfold image2
    apply List.ext_getElem?
    intro i
    rw [List.getElem?_map]
    by_cases hi : i < n
    · rw [List.getElem?_range hi, List.getElem?_eq_getElem (by omega)]
      simp only [Option.map_some, Option.some.injEq]
      apply List.ext_getElem?
      intro j
      rw [List.getElem?_map]
      have hl := h2 _ (List.getElem_mem (show i < I.length by omega))
      by_cases hj : j < n
      · rw [List.getElem?_range hj, List.getElem?_eq_getElem (by omega)]
        simp [List.getElem?_eq_getElem (show i < I.length by omega), List.getElem?_eq_getElem (show j < I[i].length by omega)]
      · rw [List.getElem?_eq_none (l := I[i]) (by omega), List.getElem?_eq_none (l := List.range n) (by simpa using hj)]
        rfl
    · rw [List.getElem?_eq_none (by omega), List.getElem?_eq_none (by simpa using hi)]
      rfl
  · rintro ⟨f, rfl⟩
    exact squareImage_image2 n f

theorem entry2_image2 {α : Type} (n : Nat) (f : Nat → Nat → α) (i j : Nat) (hi : i < n) (hj : j < n) : entry2 (image2 n f) i j = some (f i j) :=
  image2_get n f i j hi hj

section
variable {K Q : Type} [Field K] [LinearOrder K] [IsStrictOrderedRing K] [FloorRing K]

/-- The pixels of the points still off the diagonal after clipping. -/
def heatCoords (lo hi step : K) (D : List (Pt K Q)) : List (Int × Int) :=
  ((D.map fun p => (clipTo lo hi p.b, clipTo lo hi p.d)).filter fun p => decide (p.2 ≠ p.1)).map fun p => (pixel lo step p.1, pixel lo step p.2)

theorem heatRaster_eq (s : List K) (n : Nat) (lo hi step : K) (hn : 1 ≤ n) (hs : 0 < step) (h : EquallySpaced s n lo hi step) (D : List (Pt K Q)) :
    heatRaster s step D = .ok (image2 n fun (i j : Nat) => ((heatCoords lo hi step D).count ((i : Int), (j : Int)) : K)) ∧
      ∀ c ∈ heatCoords lo hi step D, 0 ≤ c.1 ∧ c.1 < n ∧ 0 ≤ c.2 ∧ c.2 < n := by
  have hl := equallySpaced_last s n lo hi step hn h
  have hlh : lo ≤ hi := by
    rw [hl]
    have : 0 ≤ ((n - 1 : Nat) : K) * step := mul_nonneg (Nat.cast_nonneg _) (le_of_lt hs)
    linarith
  have hb : ∀ c ∈ heatCoords lo hi step D, 0 ≤ c.1 ∧ c.1 < n ∧ 0 ≤ c.2 ∧ c.2 < n := by
    intro c hc
    unfold heatCoords at hc
    rw [List.mem_map] at hc
    obtain ⟨x, hx, rfl⟩ := hc
    rw [List.mem_filter, List.mem_map] at hx
    obtain ⟨⟨p, -, rfl⟩, -⟩ := hx
    have h1 := clipTo_mem lo hi p.b hlh
    have h2 := clipTo_mem lo hi p.d hlh
    have q1 := pixel_spec lo step _ n hn hs h1.1 (hl ▸ h1.2)
    have q2 := pixel_spec lo step _ n hn hs h2.1 (hl ▸ h2.2)
    exact ⟨q1.1, q1.2, q2.1, q2.2⟩
  refine ⟨?_, hb⟩
  unfold heatRaster
  dsimp only
  rw [equallySpaced_head s n lo hi step h, equallySpaced_getLast s n lo hi step h, h.1]
  exact sampleImage_eq n _ hb

theorem heatCoords_perm (lo hi step : K) (D D' : List (Pt K Q)) (h : SameFeatures D D') :
    (heatCoords lo hi step D).Perm (heatCoords lo hi step D') := by
  have key : ∀ D : List (Pt K Q), heatCoords lo hi step D = heatCoords lo hi step (offDiag D) := by
    intro D
    unfold heatCoords offDiag
    congr 1
    induction D with
    | nil => rfl
    | cons p t ih =>
      rw [List.map_cons, List.filter_cons, List.filter_cons]
      by_cases hp : p.b = p.d
      · simp only [hp, ne_eq, not_true_eq_false, decide_false, Bool.false_eq_true, if_false]
        exact ih
      · simp only [hp, ne_eq, not_false_eq_true, decide_true, if_true, List.map_cons, List.filter_cons]
        rw [ih]
  rw [key D, key D']
  exact ((List.Perm.map _ h).filter _).map _

theorem heatCoords_length (lo hi step : K) (hlh : lo ≤ hi) (D : List (Pt K Q)) :
    (heatCoords lo hi step D).length = D.countP fun p => decide (clamp lo hi p.b ≠ clamp lo hi p.d) := by
  unfold heatCoords
  rw [List.length_map, ← List.countP_eq_length_filter, List.countP_map]
  apply List.countP_congr
  intro p _
  rw [Function.comp, decide_eq_true_eq, decide_eq_true_eq, clipTo_eq lo hi _ hlh, clipTo_eq lo hi _ hlh]
  exact ne_comm

theorem heatCoords_count (lo hi step : K) (hlh : lo ≤ hi) (hs : 0 < step) (D : List (Pt K Q)) (i j : Nat) :
    (heatCoords lo hi step D).count ((i : Int), (j : Int)) =
      D.countP fun p => decide (clamp lo hi p.b ≠ clamp lo hi p.d ∧ InBin lo step i (clamp lo hi p.b) ∧ InBin lo step j (clamp lo hi p.d)) := by
  unfold heatCoords
  rw [List.count, List.countP_map, List.countP_filter, List.countP_map]
  apply List.countP_congr
  intro p _
  have h1 := clipTo_mem lo hi p.b hlh
  have h2 := clipTo_mem lo hi p.d hlh
  simp only [Function.comp, Bool.and_eq_true, beq_iff_eq, Prod.mk.injEq, decide_eq_true_eq, pixel_eq_iff lo step _ hs h1.1, pixel_eq_iff lo step _ hs h2.1]
  rw [clipTo_eq lo hi _ hlh, clipTo_eq lo hi _ hlh]
  unfold InBin clamp
  constructor
  · rintro ⟨⟨a, b⟩, c⟩; exact ⟨Ne.symm c, a, b⟩
  · rintro ⟨c, a, b⟩; exact ⟨⟨a, b⟩, Ne.symm c⟩

theorem spaced_le (s : List K) (n : Nat) (lo hi step : K) (hn : 1 ≤ n) (hs : 0 ≤ step) (h : EquallySpaced s n lo hi step) : lo ≤ hi := by
  rw [equallySpaced_last s n lo hi step hn h]
  have : 0 ≤ ((n - 1 : Nat) : K) * step := mul_nonneg (Nat.cast_nonneg _) hs
  linarith

/-- **C30.** Rasterisation of a diagram for the heat kernel with any sampling of `n ≥ 2` equally spaced values with positive step: it never writes outside the `n × n` raster; pixel
`(i, j)` counts the points whose (clipped) birth is in the `i`-th and death in the `j`-th interval of the sampling, diagonal points excluded; every
off-diagonal point, unless clipped to the diagonal, contributes exactly one unit of mass. -/
theorem C30_raster (s : List K) (n : Nat) (lo hi step : K) (hn : 2 ≤ n) (hs : 0 < step) (h : EquallySpaced s n lo hi step) (D : List (Pt K Q)) :
    ∃ I, heatRaster s step D = .ok I ∧ SquareImage n I ∧
      (∀ i j : Nat, i < n → j < n → entry2 I i j = some (((D.countP fun p =>
        decide (clamp lo hi p.b ≠ clamp lo hi p.d ∧ InBin lo step i (clamp lo hi p.b) ∧ InBin lo step j (clamp lo hi p.d))) : Nat) : K)) ∧
      (I.map List.sum).sum = ((D.countP fun p => decide (clamp lo hi p.b ≠ clamp lo hi p.d) : Nat) : K) := by
  obtain ⟨h1, h2⟩ := heatRaster_eq s n lo hi step (by omega) hs h D
  have hlh := spaced_le s n lo hi step (by omega) (le_of_lt hs) h
  refine ⟨_, h1, squareImage_image2 n _, ?_, ?_⟩
  · intro i j hi hj
    rw [entry2_image2 n _ i j hi hj, heatCoords_count lo _ step hlh hs]
  · rw [sum_image2_count n _ h2, heatCoords_length lo hi step hlh]

/-- **C30.** The heat kernel image is antisymmetric, for every smoothing filter `G` mapping `n × n` images to `n × n` images: before the final rotation by 90 degrees entry
`(i, j)` is minus entry `(j, i)`, that is, in the output entry `(i, j)` is minus entry `(n - 1 - j, n - 1 - i)`. Up to this rotation the image is
`(G I - (G I)ᵀ) / step²` for the raster `I` of `C30_raster`. -/
theorem C30_heat_antisymmetric (G : List (List K) → List (List K)) (s : List K) (n : Nat) (lo hi step : K) (hn : 2 ≤ n) (hs : 0 ≤ step)
    (h : EquallySpaced s n lo hi step) (hG : ∀ I, SquareImage n I → SquareImage n (G I)) (D : List (Pt K Q)) :
    ∃ H, heatOne G s step D = .ok H ∧ SquareImage n H ∧
      (∀ i j, i < n → j < n → ∃ v, entry2 H i j = some v ∧ entry2 H (n - 1 - j) (n - 1 - i) = some (-v)) ∧
      (0 < step → ∃ I, heatRaster s step D = .ok I ∧ ∀ i j, i < n → j < n → ∃ a b, entry2 (G I) j (n - 1 - i) = some a ∧ entry2 (G I) (n - 1 - i) j = some b ∧
        entry2 H i j = some ((a - b) / step ^ 2)) := by
  have : Inhabited K := ⟨0⟩
  rcases eq_or_lt_of_le hs with h0 | h0
  · refine ⟨image2 n fun _ _ => 0, by simp [heatOne, ← h0, h.1], squareImage_image2 n _, ?_, fun h => absurd h (by simp [← h0])⟩
    intro i j hi hj
    exact ⟨0, entry2_image2 n _ i j hi hj, by rw [neg_zero]; exact entry2_image2 n _ _ _ (by omega) (by omega)⟩
  · obtain ⟨h1, -⟩ := heatRaster_eq s n lo hi step (by omega) h0 h D
    obtain ⟨g, hg⟩ := (squareImage_iff n _).mp (hG _ (squareImage_image2 n fun (i j : Nat) => ((heatCoords lo hi step D).count ((i : Int), (j : Int)) : K)))
    refine ⟨image2 n fun i j => (g j (n - 1 - i) - g (n - 1 - i) j) / step ^ 2, ?_, squareImage_image2 n _, ?_, fun _ => ⟨_, h1, ?_⟩⟩
    · unfold heatOne
      dsimp only
      rw [if_neg (ne_of_gt h0), h1, h.1]
      simp only [ok_bind]
      rw [hg, transposeN_image2, zipWith_image2, map_image2, rot90_image2]
    · intro i j hi hj
      refine ⟨_, entry2_image2 n _ i j hi hj, ?_⟩
      rw [entry2_image2 n _ _ _ (by omega) (by omega), show n - 1 - (n - 1 - j) = j by omega, ← neg_div, neg_sub]
    · intro i j hi hj
      rw [hg]
      exact ⟨_, _, entry2_image2 n g j (n - 1 - i) hj (by omega), entry2_image2 n g (n - 1 - i) j (by omega) hj, entry2_image2 n _ i j hi hj⟩

/-- **C30.** A diagram with only diagonal points gives the zero image, for every filter mapping the zero image to itself. -/
theorem C30_trivial (G : List (List K) → List (List K)) (s : List K) (n : Nat) (lo hi step : K) (hn : 2 ≤ n) (hs : 0 ≤ step)
    (h : EquallySpaced s n lo hi step) (hG : ∀ I, SquareImage n I → (∀ r ∈ I, ∀ x ∈ r, x = 0) → G I = I) (D : List (Pt K Q)) (hD : ∀ p ∈ D, p.b = p.d) :
    ∃ H, heatOne G s step D = .ok H ∧ SquareImage n H ∧ ∀ r ∈ H, ∀ x ∈ r, x = 0 := by
  have : Inhabited K := ⟨0⟩
  have hz : ∀ r ∈ image2 n (fun _ _ => (0 : K)), ∀ x ∈ r, x = 0 := by
    intro r hr x hx
    simp only [image2, List.mem_map] at hr
    obtain ⟨i, -, rfl⟩ := hr
    rw [List.mem_map] at hx
    obtain ⟨_, -, rfl⟩ := hx
    rfl
  rcases eq_or_lt_of_le hs with h0 | h0
  · exact ⟨image2 n fun _ _ => 0, by simp [heatOne, ← h0, h.1], squareImage_image2 n _, hz⟩
  · obtain ⟨h1, -⟩ := heatRaster_eq s n lo hi step (by omega) h0 h D
    have hc : heatCoords lo hi step D = [] := by
      unfold heatCoords
      rw [List.map_eq_nil_iff, List.filter_eq_nil_iff]
      intro x hx
      rw [List.mem_map] at hx
      obtain ⟨p, hp, rfl⟩ := hx
      simp [hD p hp]
    rw [hc] at h1
    simp only [List.count_nil, Nat.cast_zero] at h1
    refine ⟨image2 n fun _ _ => 0, ?_, squareImage_image2 n _, hz⟩
    unfold heatOne
    dsimp only
    rw [if_neg (ne_of_gt h0), h1, h.1]
    simp only [ok_bind]
    rw [hG _ (squareImage_image2 n _) hz, transposeN_image2, zipWith_image2, map_image2, rot90_image2]
    simp

theorem heatOne_same (G : List (List K) → List (List K)) (s : List K) (n : Nat) (lo hi step : K) (hn : 2 ≤ n) (hs : 0 ≤ step)
    (h : EquallySpaced s n lo hi step) (D D' : List (Pt K Q)) (hD : SameFeatures D D') : heatOne G s step D = heatOne G s step D' := by
  rcases eq_or_lt_of_le hs with h0 | h0
  · simp [heatOne, ← h0]
  · unfold heatOne
    rw [(heatRaster_eq s n lo hi step (by omega) h0 h D).1, (heatRaster_eq s n lo hi step (by omega) h0 h D').1]
    have : ∀ c, (heatCoords lo hi step D).count c = (heatCoords lo hi step D').count c := fun c => (heatCoords_perm lo hi step D D' hD).count_eq c
    simp only [this]

section
variable [DecidableEq Q]

theorem perDim_mapM {β : Type} (f : Q → List (Pt K Q) → PyM β) (g : Q → List (Pt K Q) → β) (dims : List Q) (nJobs : Nat) (X : List (List (Pt K Q)))
    (hn : 1 ≤ nJobs) (hd : dims ≠ []) (hX : X ≠ []) (hE : ∀ q ∈ dims, EqualCounts X q)
    (hfg : ∀ q ∈ dims, ∀ D ∈ X, f q (pointsIn D q) = .ok (g q (pointsIn D q))) :
    perDim (fun q Y => Y.mapM (f q)) dims nJobs X = .ok (X.map fun D => dims.map fun q => g q (pointsIn D q)) := by
  apply perDim_eq _ _ dims nJobs hn hd X hX hE
  intro q hq Y _ hsub
  rw [mapM_ok (g := g q)]
  · rw [List.map_map]; rfl
  · intro D hD
    rw [List.mem_map] at hD
    obtain ⟨D, hD, rfl⟩ := hD
    exact hfg q hq D (hsub D hD)

theorem heatOne_image (G : List (List K) → List (List K)) (s : List K) (n : Nat) (lo hi step : K) (hn : 2 ≤ n) (hs : 0 ≤ step) (h : EquallySpaced s n lo hi step)
    (hG : ∀ I, SquareImage n I → SquareImage n (G I)) (D : List (Pt K Q)) : ∃ H, heatOne G s step D = .ok H ∧ Spec.Raster.IsHeatImage G s step D H := by
  have hl := h.1
  obtain ⟨H, h1, h2, h3, h4⟩ := C30_heat_antisymmetric G s n lo hi step hn hs h hG D
  refine ⟨H, h1, by rw [hl]; exact h2, ?_, ?_⟩
  · rintro h0 i j hi hj
    rw [hl] at hi hj
    have : H = image2 n fun _ _ => 0 := by
      unfold heatOne at h1
      simp only [h0, if_true, hl, Except.ok.injEq] at h1
      exact h1.symm
    rw [this]
    exact entry2_image2 n _ i j hi hj
  · intro h0
    have hp := lt_of_le_of_ne hs (Ne.symm h0)
    obtain ⟨I, hI, hent⟩ := h4 hp
    obtain ⟨I', hI', hsq, hcount, -⟩ := C30_raster s n lo hi step hn hp h D
    rw [hI, Except.ok.injEq] at hI'
    subst hI'
    refine ⟨I, ⟨by rw [hl]; exact hsq, lo, hi, ⟨h.2.1, by rw [hl]; exact h.2.2.1⟩, by rw [hl]; exact hcount⟩, ?_⟩
    rw [hl]
    intro x y hx hy
    obtain ⟨u, v, hu, hv, huv⟩ := hent (n - 1 - y) x (by omega) hx
    rw [show n - 1 - (n - 1 - y) = y by omega] at hu hv
    exact ⟨u, v, hu, hv, huv⟩

theorem heatTransform_one (G : List (List K) → List (List K)) (n : Nat) (dims : List Q) (sampling : Q → List K) (lo hi step : Q → K) (nJobs : Nat)
    (X : List (List (Pt K Q))) (hn : 1 ≤ nJobs) (hd : dims ≠ []) (hX : X ≠ []) (hE : ∀ q ∈ dims, EqualCounts X q) (hb : 2 ≤ n)
    (hs : ∀ q ∈ dims, 0 ≤ step q ∧ EquallySpaced (sampling q) n (lo q) (hi q) (step q)) (hG : ∀ I, SquareImage n I → SquareImage n (G I)) :
    ∃ R, heatTransform G dims sampling step nJobs X = .ok R ∧ R.length = X.length ∧
      ∀ (i j : Nat) D q, X[i]? = some D → dims[j]? = some q → ∃ H, entry2 R i j = some H ∧ heatOne G (sampling q) (step q) (pointsIn D q) = .ok H ∧ Spec.Raster.IsHeatImage G (sampling q) (step q) (pointsIn D q) H := by
  have hok : ∀ q ∈ dims, ∀ D : List (Pt K Q), ∃ H, heatOne G (sampling q) (step q) D = .ok H ∧ Spec.Raster.IsHeatImage G (sampling q) (step q) D H := by
    intro q hq D
    exact heatOne_image G (sampling q) n (lo q) (hi q) (step q) hb (hs q hq).1 (hs q hq).2 hG D
  let g : Q → List (Pt K Q) → List (List K) := fun q D => match heatOne G (sampling q) (step q) D with | .ok H => H | .error _ => []
  have hg : ∀ q ∈ dims, ∀ D : List (Pt K Q), heatOne G (sampling q) (step q) D = .ok (g q D) ∧ Spec.Raster.IsHeatImage G (sampling q) (step q) D (g q D) := by
    intro q hq D
    obtain ⟨H, hH, h2⟩ := hok q hq D
    simp only [g, hH, true_and]
    exact h2
  refine ⟨_, perDim_mapM _ g dims nJobs X hn hd hX hE (fun q hq D _ => (hg q hq _).1), by simp, ?_⟩
  intro i j D q h1 h2
  exact ⟨_, by simp [entry2, h1, h2], (hg q (List.mem_of_getElem? h2) _)⟩

/-- **C30.** `HeatKernel.transform`, for every number of jobs: entry `[i][j]` is the heat kernel image of the points of diagram `i` in the `j`-th homology dimension. -/
theorem C30_transform (G : List (List K) → List (List K)) (n : Nat) (dims : List Q) (sampling : Q → List K) (lo hi step : Q → K) (nJobs : Nat)
    (X : List (List (Pt K Q))) (hn : 1 ≤ nJobs) (hd : dims ≠ []) (hX : X ≠ []) (hE : ∀ q ∈ dims, EqualCounts X q) (hb : 2 ≤ n)
    (hs : ∀ q ∈ dims, 0 ≤ step q ∧ EquallySpaced (sampling q) n (lo q) (hi q) (step q)) (hG : ∀ I, SquareImage n I → SquareImage n (G I)) :
    ∃ R, heatTransform G dims sampling step nJobs X = .ok R ∧ R.length = X.length ∧
      ∀ (i j : Nat) D q, X[i]? = some D → dims[j]? = some q → ∃ H, entry2 R i j = some H ∧ Spec.Raster.IsHeatImage G (sampling q) (step q) (pointsIn D q) H := by
  obtain ⟨R, h1, h2, h3⟩ := heatTransform_one G n dims sampling lo hi step nJobs X hn hd hX hE hb hs hG
  refine ⟨R, h1, h2, fun i j D q hD hq => ?_⟩
  obtain ⟨H, a, -, c⟩ := h3 i j D q hD hq
  exact ⟨H, a, c⟩

/-- **C30.** Reordering points and adding or removing diagonal points does not change heat kernel images. -/
theorem C30_order_padding (G : List (List K) → List (List K)) (n : Nat) (dims : List Q) (sampling : Q → List K) (lo hi step : Q → K) (nJobs nJobs' : Nat)
    (X X' : List (List (Pt K Q))) (hn : 1 ≤ nJobs) (hn' : 1 ≤ nJobs') (hd : dims ≠ []) (hX : X ≠ []) (hE : ∀ q ∈ dims, EqualCounts X q)
    (hE' : ∀ q ∈ dims, EqualCounts X' q) (hb : 2 ≤ n)
    (hs : ∀ q ∈ dims, 0 ≤ step q ∧ EquallySpaced (sampling q) n (lo q) (hi q) (step q)) (hG : ∀ I, SquareImage n I → SquareImage n (G I))
    (h : List.Forall₂ SameFeatures X X') :
    ∃ R, heatTransform G dims sampling step nJobs X = .ok R ∧ heatTransform G dims sampling step nJobs' X' = .ok R := by
  have hX' : X' ≠ [] := by rintro rfl; exact hX (List.forall₂_nil_right_iff.mp h)
  let g : Q → List (Pt K Q) → List (List K) := fun q D => match heatOne G (sampling q) (step q) D with | .ok H => H | .error _ => []
  have hg : ∀ q ∈ dims, ∀ D : List (Pt K Q), heatOne G (sampling q) (step q) D = .ok (g q D) := by
    intro q hq D
    obtain ⟨H, hH, -⟩ := C30_heat_antisymmetric G (sampling q) n (lo q) (hi q) (step q) hb (hs q hq).1 (hs q hq).2 hG D
    simp only [g, hH]
  refine ⟨_, perDim_mapM _ g dims nJobs X hn hd hX hE (fun q hq D _ => hg q hq _), ?_⟩
  unfold heatTransform
  rw [perDim_mapM _ g dims nJobs' X' hn' hd hX' hE' (fun q hq D _ => hg q hq _)]
  congr 1
  clear hE hE' hX hX'
  induction h with
  | nil => rfl
  | cons h _ ih =>
    rw [List.map_cons, List.map_cons, ih]
    congr 1
    apply List.map_congr_left
    intro q hq
    simp only [g]
    rw [heatOne_same G (sampling q) n (lo q) (hi q) (step q) hb (hs q hq).1 (hs q hq).2 _ _ (pointsIn_perm h q)]

end

/-! ### Persistence images -/

/-- The pixels of the points with non-zero lifetime after clipping. -/
def imageCoords (lo₀ hi₀ step₀ lo₁ hi₁ step₁ : K) (D : List (Pt K Q)) : List (Int × Int) :=
  (((D.map fun p => (p.b, p.d - p.b)).map fun p => (clipTo lo₀ hi₀ p.1, clipTo lo₁ hi₁ p.2)).filter fun p => decide (p.2 ≠ 0)).map
    fun p => (pixel lo₀ step₀ p.1, pixel lo₁ step₁ p.2)

theorem zipWith_map_range (n : Nat) (f : Nat → K) (w : List K) (hw : w.length = n) :
    List.zipWith (· * ·) ((List.range n).map f) w = (List.range n).map fun j => f j * (w[j]?).getD 0 := by
  apply List.ext_getElem?
  intro j
  rw [List.getElem?_zipWith, List.getElem?_map, List.getElem?_map]
  by_cases hj : j < n
  · rw [List.getElem?_range hj, List.getElem?_eq_getElem (l := w) (by omega)]
    simp [List.getElem?_eq_getElem (show j < w.length by omega)]
  · rw [List.getElem?_eq_none (by simpa using hj)]
    rfl

theorem imageRaster_eq (s₀ s₁ : List K) (n : Nat) (lo₀ hi₀ step₀ lo₁ hi₁ step₁ : K) (hn : 1 ≤ n) (hs₀ : 0 < step₀) (hs₁ : 0 < step₁)
    (h₀ : EquallySpaced s₀ n lo₀ hi₀ step₀) (h₁ : EquallySpaced s₁ n lo₁ hi₁ step₁) (w : List K) (hw : w.length = n) (D : List (Pt K Q)) :
    imageRaster s₀ s₁ step₀ step₁ w D = .ok (image2 n fun (i j : Nat) =>
      ((imageCoords lo₀ hi₀ step₀ lo₁ hi₁ step₁ D).count ((i : Int), (j : Int)) : K) * (w[j]?).getD 0) := by
  have l0 := equallySpaced_last s₀ n lo₀ hi₀ step₀ hn h₀
  have l1 := equallySpaced_last s₁ n lo₁ hi₁ step₁ hn h₁
  have g0 := spaced_le s₀ n lo₀ hi₀ step₀ hn (le_of_lt hs₀) h₀
  have g1 := spaced_le s₁ n lo₁ hi₁ step₁ hn (le_of_lt hs₁) h₁
  have hb : ∀ c ∈ imageCoords lo₀ hi₀ step₀ lo₁ hi₁ step₁ D, 0 ≤ c.1 ∧ c.1 < n ∧ 0 ≤ c.2 ∧ c.2 < n := by
    intro c hc
    unfold imageCoords at hc
    rw [List.mem_map] at hc
    obtain ⟨x, hx, rfl⟩ := hc
    rw [List.mem_filter, List.mem_map] at hx
    obtain ⟨⟨p, -, rfl⟩, -⟩ := hx
    have h1 := clipTo_mem lo₀ hi₀ p.1 g0
    have h2 := clipTo_mem lo₁ hi₁ p.2 g1
    have q1 := pixel_spec lo₀ step₀ _ n hn hs₀ h1.1 (l0 ▸ h1.2)
    have q2 := pixel_spec lo₁ step₁ _ n hn hs₁ h2.1 (l1 ▸ h2.2)
    exact ⟨q1.1, q1.2, q2.1, q2.2⟩
  unfold imageRaster
  dsimp only
  rw [equallySpaced_head s₀ n lo₀ hi₀ step₀ h₀, equallySpaced_getLast s₀ n lo₀ hi₀ step₀ h₀,
    equallySpaced_head s₁ n lo₁ hi₁ step₁ h₁, equallySpaced_getLast s₁ n lo₁ hi₁ step₁ h₁, h₀.1]
  have := sampleImage_eq (K := K) n _ hb
  unfold imageCoords at this ⊢
  rw [this]
  simp only [ok_bind]
  congr 1
  unfold image2
  rw [List.map_map]
  apply List.map_congr_left
  intro i _
  simp only [Function.comp]
  exact zipWith_map_range n _ w hw

theorem imageCoords_count (lo₀ hi₀ step₀ lo₁ hi₁ step₁ : K) (h₀ : lo₀ ≤ hi₀) (h₁ : lo₁ ≤ hi₁) (hs₀ : 0 < step₀) (hs₁ : 0 < step₁) (D : List (Pt K Q)) (i j : Nat) :
    (imageCoords lo₀ hi₀ step₀ lo₁ hi₁ step₁ D).count ((i : Int), (j : Int)) =
      D.countP fun p => decide (clamp lo₁ hi₁ (p.d - p.b) ≠ 0 ∧ InBin lo₀ step₀ i (clamp lo₀ hi₀ p.b) ∧ InBin lo₁ step₁ j (clamp lo₁ hi₁ (p.d - p.b))) := by
  unfold imageCoords
  rw [List.count, List.countP_map, List.countP_filter, List.countP_map, List.countP_map]
  apply List.countP_congr
  intro p _
  have h1 := clipTo_mem lo₀ hi₀ p.b h₀
  have h2 := clipTo_mem lo₁ hi₁ (p.d - p.b) h₁
  simp only [Function.comp, Bool.and_eq_true, beq_iff_eq, Prod.mk.injEq, decide_eq_true_eq, pixel_eq_iff lo₀ step₀ _ hs₀ h1.1, pixel_eq_iff lo₁ step₁ _ hs₁ h2.1]
  rw [clipTo_eq lo₀ hi₀ _ h₀, clipTo_eq lo₁ hi₁ _ h₁]
  unfold InBin clamp
  constructor
  · rintro ⟨⟨a, b⟩, c⟩; exact ⟨c, a, b⟩
  · rintro ⟨c, a, b⟩; exact ⟨⟨a, b⟩, c⟩

/-- **C31**, what a persistence image is (before smoothing): for samplings of births and lifetimes by `n ≥ 2` equally spaced values with positive steps, pixel `(i, j)` is
the weight of the `j`-th sampled lifetime times the number of points whose clipped birth is in the `i`-th and whose clipped lifetime is in the `j`-th interval;
points whose *clipped* lifetime is zero are ignored. -/
theorem C31_raster (s₀ s₁ : List K) (n : Nat) (lo₀ hi₀ step₀ lo₁ hi₁ step₁ : K) (hn : 2 ≤ n) (hs₀ : 0 < step₀) (hs₁ : 0 < step₁)
    (h₀ : EquallySpaced s₀ n lo₀ hi₀ step₀) (h₁ : EquallySpaced s₁ n lo₁ hi₁ step₁) (w : K → K) (D : List (Pt K Q)) :
    ∃ I, imageRaster s₀ s₁ step₀ step₁ (s₁.map w) D = .ok I ∧ SquareImage n I ∧
      ∀ i j : Nat, i < n → j < n → entry2 I i j = some (((D.countP fun p =>
        decide (clamp lo₁ hi₁ (p.d - p.b) ≠ 0 ∧ InBin lo₀ step₀ i (clamp lo₀ hi₀ p.b) ∧ InBin lo₁ step₁ j (clamp lo₁ hi₁ (p.d - p.b)))) : Nat) *
          w (lo₁ + (j : K) * step₁)) := by
  refine ⟨_, imageRaster_eq s₀ s₁ n lo₀ hi₀ step₀ lo₁ hi₁ step₁ (by omega) hs₀ hs₁ h₀ h₁ (s₁.map w) (by rw [List.length_map]; exact h₁.1) D,
    squareImage_image2 n _, ?_⟩
  intro i j hi hj
  rw [entry2_image2 n _ i j hi hj, imageCoords_count _ _ _ _ _ _ (spaced_le s₀ n lo₀ hi₀ step₀ (by omega) (le_of_lt hs₀) h₀)
    (spaced_le s₁ n lo₁ hi₁ step₁ (by omega) (le_of_lt hs₁) h₁) hs₀ hs₁, List.getElem?_map, equallySpaced_get s₁ n lo₁ hi₁ step₁ h₁ j hj]
  rfl

theorem imageOne_image (G : List (List K) → List (List K)) (s₀ s₁ : List K) (n : Nat) (lo₀ hi₀ step₀ lo₁ hi₁ step₁ : K) (hn : 2 ≤ n) (hs₀ : 0 ≤ step₀) (hs₁ : 0 ≤ step₁)
    (h₀ : EquallySpaced s₀ n lo₀ hi₀ step₀) (h₁ : EquallySpaced s₁ n lo₁ hi₁ step₁) (hG : ∀ I, SquareImage n I → SquareImage n (G I)) (w : K → K) (D : List (Pt K Q)) :
    ∃ H, imageOne G s₀ s₁ step₀ step₁ (s₁.map w) D = .ok H ∧ Spec.Raster.IsPersistenceImage G w s₀ s₁ step₀ step₁ D H := by
  have : Inhabited K := ⟨0⟩
  have hl := h₀.1
  by_cases hz : step₀ = 0 ∨ step₁ = 0
  · refine ⟨image2 n fun _ _ => 0, by simp [imageOne, hz, hl], by rw [hl]; exact squareImage_image2 n _, ?_, ?_⟩
    · rintro - i j hi hj
      rw [hl] at hi hj
      exact entry2_image2 n _ i j hi hj
    · intro a b
      rcases hz with h | h
      · exact absurd h a
      · exact absurd h b
  · rw [not_or] at hz
    have p0 := lt_of_le_of_ne hs₀ (Ne.symm hz.1)
    have p1 := lt_of_le_of_ne hs₁ (Ne.symm hz.2)
    obtain ⟨I, hI, hsq, hent⟩ := C31_raster s₀ s₁ n _ _ _ _ _ _ hn p0 p1 h₀ h₁ w D
    obtain ⟨g, hg⟩ := (squareImage_iff n _).mp (hG I hsq)
    refine ⟨image2 n fun i j => g j (n - 1 - i) / (step₀ * step₁), ?_, by rw [hl]; exact squareImage_image2 n _, ?_, fun _ _ => ⟨I, ⟨by rw [hl]; exact hsq, lo₀, hi₀, lo₁, hi₁, ?_⟩, ?_⟩⟩
    · unfold imageOne
      dsimp only
      rw [if_neg (by rw [not_or]; exact hz), hI, ok_bind, hl, hg, rot90_image2, map_image2]
    · rintro (h | h)
      · exact absurd h hz.1
      · exact absurd h hz.2
    · refine ⟨⟨h₀.2.1, by rw [hl]; exact h₀.2.2.1⟩, ⟨h₁.2.1, by rw [h₁.1]; exact h₁.2.2.1⟩, ?_⟩
      intro i j t hi ht
      rw [hl] at hi
      have hj : j < n := by rw [← h₁.1]; exact (List.getElem?_eq_some_iff.1 ht).1
      rw [hent i j hi hj]
      rw [equallySpaced_get s₁ n lo₁ hi₁ step₁ h₁ j hj, Option.some.injEq] at ht
      rw [ht]
    · rw [hl]
      intro x y hx hy
      refine ⟨g x y, by rw [hg]; exact entry2_image2 n g x y hx hy, ?_⟩
      rw [entry2_image2 n _ _ _ (by omega) hx, show n - 1 - (n - 1 - y) = y by omega]

/-- **C31.** `PersistenceImage.transform`, for every number of jobs, weight function and smoothing filter: entry `[i][j]` is the persistence image of the points of diagram `i` in the `j`-th homology
dimension. -/
theorem C31_transform [DecidableEq Q] (G : List (List K) → List (List K)) (w : K → K) (n : Nat) (dims : List Q) (s₀ s₁ : Q → List K) (lo₀ hi₀ step₀ lo₁ hi₁ step₁ : Q → K) (nJobs : Nat)
    (X : List (List (Pt K Q))) (hn : 1 ≤ nJobs) (hd : dims ≠ []) (hX : X ≠ []) (hE : ∀ q ∈ dims, EqualCounts X q) (hb : 2 ≤ n)
    (hs₀ : ∀ q ∈ dims, 0 ≤ step₀ q ∧ EquallySpaced (s₀ q) n (lo₀ q) (hi₀ q) (step₀ q)) (hs₁ : ∀ q ∈ dims, 0 ≤ step₁ q ∧ EquallySpaced (s₁ q) n (lo₁ q) (hi₁ q) (step₁ q))
    (hG : ∀ I, SquareImage n I → SquareImage n (G I)) :
    ∃ R, imageTransform G w dims s₀ s₁ step₀ step₁ nJobs X = .ok R ∧ R.length = X.length ∧
      ∀ (i j : Nat) D q, X[i]? = some D → dims[j]? = some q → ∃ H, entry2 R i j = some H ∧ Spec.Raster.IsPersistenceImage G w (s₀ q) (s₁ q) (step₀ q) (step₁ q) (pointsIn D q) H := by
  let g : Q → List (Pt K Q) → List (List K) := fun q D => match imageOne G (s₀ q) (s₁ q) (step₀ q) (step₁ q) ((s₁ q).map w) D with | .ok H => H | .error _ => []
  have hg : ∀ q ∈ dims, ∀ D : List (Pt K Q), imageOne G (s₀ q) (s₁ q) (step₀ q) (step₁ q) ((s₁ q).map w) D = .ok (g q D) ∧
      Spec.Raster.IsPersistenceImage G w (s₀ q) (s₁ q) (step₀ q) (step₁ q) D (g q D) := by
    intro q hq D
    obtain ⟨H, hH, h2⟩ := imageOne_image G (s₀ q) (s₁ q) n _ _ _ _ _ _ hb (hs₀ q hq).1 (hs₁ q hq).1 (hs₀ q hq).2 (hs₁ q hq).2 hG w D
    simp only [g, hH, true_and]
    exact h2
  refine ⟨_, perDim_mapM _ g dims nJobs X hn hd hX hE (fun q hq D _ => (hg q hq _).1), by simp, ?_⟩
  intro i j D q h1 h2
  exact ⟨_, by simp [entry2, h1, h2], (hg q (List.mem_of_getElem? h2) _).2⟩

theorem imageCoords_perm (lo₀ hi₀ step₀ hi₁ step₁ : K) (h : 0 ≤ hi₁) (D D' : List (Pt K Q)) (hD : SameFeatures D D') :
    (imageCoords lo₀ hi₀ step₀ 0 hi₁ step₁ D).Perm (imageCoords lo₀ hi₀ step₀ 0 hi₁ step₁ D') := by
  have key : ∀ D : List (Pt K Q), imageCoords lo₀ hi₀ step₀ 0 hi₁ step₁ D = imageCoords lo₀ hi₀ step₀ 0 hi₁ step₁ (offDiag D) := by
    intro D
    unfold imageCoords offDiag
    congr 1
    induction D with
    | nil => rfl
    | cons p t ih =>
      by_cases hp : p.b = p.d
      · rw [List.map_cons, List.map_cons, List.filter_cons, List.filter_cons]
        have : clipTo 0 hi₁ (p.d - p.b) = 0 := by
          rw [clipTo_eq 0 hi₁ _ h, hp, sub_self, min_eq_right h, max_self]
        rw [if_neg (by simp [this]), if_neg (by simp [hp])]
        exact ih
      · rw [List.filter_cons]
        simp only [hp, ne_eq, not_false_eq_true, decide_true, if_true]
        rw [List.map_cons, List.map_cons, List.map_cons, List.map_cons, List.filter_cons, List.filter_cons, ih]
  rw [key D, key D']
  exact (((List.Perm.map _ hD).map _).filter _).map _

theorem imageOne_same (G : List (List K) → List (List K)) (s₀ s₁ : List K) (n : Nat) (lo₀ hi₀ step₀ hi₁ step₁ : K) (hn : 2 ≤ n) (hs₀ : 0 ≤ step₀) (hs₁ : 0 ≤ step₁)
    (h₀ : EquallySpaced s₀ n lo₀ hi₀ step₀) (h₁ : EquallySpaced s₁ n 0 hi₁ step₁) (w : List K) (hw : w.length = n) (D D' : List (Pt K Q)) (hD : SameFeatures D D') :
    imageOne G s₀ s₁ step₀ step₁ w D = imageOne G s₀ s₁ step₀ step₁ w D' := by
  unfold imageOne
  dsimp only
  split
  · rfl
  · rename_i hne
    rw [not_or] at hne
    have p0 : 0 < step₀ := lt_of_le_of_ne hs₀ (Ne.symm hne.1)
    have p1 : 0 < step₁ := lt_of_le_of_ne hs₁ (Ne.symm hne.2)
    rw [imageRaster_eq s₀ s₁ n lo₀ hi₀ step₀ 0 hi₁ step₁ (by omega) p0 p1 h₀ h₁ w hw D, imageRaster_eq s₀ s₁ n lo₀ hi₀ step₀ 0 hi₁ step₁ (by omega) p0 p1 h₀ h₁ w hw D']
    have : ∀ c, (imageCoords lo₀ hi₀ step₀ 0 hi₁ step₁ D).count c = (imageCoords lo₀ hi₀ step₀ 0 hi₁ step₁ D').count c :=
      fun c => (imageCoords_perm lo₀ hi₀ step₀ hi₁ step₁ (spaced_le s₁ n 0 hi₁ step₁ (by omega) hs₁ h₁) D D' hD).count_eq c
    simp only [this]

section
variable [DecidableEq Q]

/-- **C31**, partial: reordering points and adding or removing diagonal points does not change persistence images *if the sampling of lifetimes starts at 0*, that is (see
`C32_samplings_persistence_image`), if in every homology dimension some training diagram has a diagonal point. Missing: the case where no training diagram has a diagonal point, in which
the claim is false (`C31_refuted`). -/
theorem C31_order_padding_partial (G : List (List K) → List (List K)) (w : K → K) (n : Nat) (dims : List Q) (s₀ s₁ : Q → List K) (lo₀ hi₀ step₀ hi₁ step₁ : Q → K)
    (nJobs nJobs' : Nat) (X X' : List (List (Pt K Q))) (hn : 1 ≤ nJobs) (hn' : 1 ≤ nJobs') (hd : dims ≠ []) (hX : X ≠ []) (hE : ∀ q ∈ dims, EqualCounts X q)
    (hE' : ∀ q ∈ dims, EqualCounts X' q) (hb : 2 ≤ n)
    (hs₀ : ∀ q ∈ dims, 0 ≤ step₀ q ∧ EquallySpaced (s₀ q) n (lo₀ q) (hi₀ q) (step₀ q))
    (hs₁ : ∀ q ∈ dims, 0 ≤ step₁ q ∧ EquallySpaced (s₁ q) n 0 (hi₁ q) (step₁ q))
    (h : List.Forall₂ SameFeatures X X') :
    ∃ R, imageTransform G w dims s₀ s₁ step₀ step₁ nJobs X = .ok R ∧ imageTransform G w dims s₀ s₁ step₀ step₁ nJobs' X' = .ok R := by
  have hX' : X' ≠ [] := by rintro rfl; exact hX (List.forall₂_nil_right_iff.mp h)
  let g : Q → List (Pt K Q) → List (List K) := fun q D => match imageOne G (s₀ q) (s₁ q) (step₀ q) (step₁ q) ((s₁ q).map w) D with | .ok H => H | .error _ => []
  have hg : ∀ q ∈ dims, ∀ D : List (Pt K Q), imageOne G (s₀ q) (s₁ q) (step₀ q) (step₁ q) ((s₁ q).map w) D = .ok (g q D) := by
    intro q hq D
    have : ∃ H, imageOne G (s₀ q) (s₁ q) (step₀ q) (step₁ q) ((s₁ q).map w) D = .ok H := by
      unfold imageOne
      dsimp only
      split
      · exact ⟨_, rfl⟩
      · rename_i hne
        rw [not_or] at hne
        rw [imageRaster_eq (s₀ q) (s₁ q) n _ _ _ _ _ _ (by omega) (lt_of_le_of_ne (hs₀ q hq).1 (Ne.symm hne.1)) (lt_of_le_of_ne (hs₁ q hq).1 (Ne.symm hne.2))
          (hs₀ q hq).2 (hs₁ q hq).2 _ (by rw [List.length_map]; exact (hs₁ q hq).2.1)]
        exact ⟨_, rfl⟩
    obtain ⟨H, hH⟩ := this
    simp only [g, hH]
  refine ⟨_, perDim_mapM _ g dims nJobs X hn hd hX hE (fun q hq D _ => hg q hq _), ?_⟩
  unfold imageTransform
  rw [perDim_mapM _ g dims nJobs' X' hn' hd hX' hE' (fun q hq D _ => hg q hq _)]
  congr 1
  clear hE hE' hX hX'
  induction h with
  | nil => rfl
  | cons h _ ih =>
    rw [List.map_cons, List.map_cons, ih]
    congr 1
    apply List.map_congr_left
    intro q hq
    simp only [g]
    rw [imageOne_same G (s₀ q) (s₁ q) n (lo₀ q) (hi₀ q) (step₀ q) (hi₁ q) (step₁ q) hb (hs₀ q hq).1 (hs₁ q hq).1 (hs₀ q hq).2 (hs₁ q hq).2 _
      (by rw [List.length_map]; exact (hs₁ q hq).2.1) _ _ (pointsIn_perm h q)]

end
end

/-! ### Concrete cases -/

/-- Training collection for persistence images without diagonal points. -/
def imgX : List (List (Pt ℚ Nat)) := [[⟨0, 1, 0⟩, ⟨1, 3, 0⟩], [⟨0, 2, 0⟩, ⟨2, 3, 0⟩]]

/-- **C31** is false: train on a collection without diagonal points, so that the sampling of lifetimes starts at the smallest lifetime 1 (`n_bins = 2`, no smoothing, weights 1);
a diagram and the same diagram padded with a diagonal point get different images. -/
theorem C31_refuted :
    ∃ (s₀ s₁ : List ℚ) (step₀ step₁ : ℚ) (D : List (Pt ℚ Nat)) (pad : Pt ℚ Nat),
      binSampling true 2 [0] imgX = .ok [((s₀, some step₀), (s₁, some step₁))] ∧ pad.b = pad.d ∧
      imageTransform id (fun _ => 1) [0] (fun _ => s₀) (fun _ => s₁) (fun _ => step₀) (fun _ => step₁) 1 [D] = .ok [[[[0, 0], [1/2, 0]]]] ∧
      imageTransform id (fun _ => 1) [0] (fun _ => s₀) (fun _ => s₁) (fun _ => step₀) (fun _ => step₁) 1 [D ++ [pad]] = .ok [[[[0, 0], [1, 0]]]] :=
  ⟨[0, 2], [1, 2], 2, 1, [⟨0, 1, 0⟩], ⟨0, 0, 0⟩, by decide +kernel⟩

/-- Two points off the diagonal and one on it: weight 2 at birth 0 and lifetime 3, weight 4 at birth 1 and lifetime 8 (cut at 4), in pixels of area 2. -/
example : imageTransform (fun I => I) (fun t => t) [0] (fun _ => ([0, 1, 2] : List ℚ)) (fun _ => [0, 2, 4]) (fun _ => 1) (fun _ => 2) 1
    [[(⟨0, 3, 0⟩ : Pt ℚ Nat), ⟨1, 9, 0⟩, ⟨2, 2, 0⟩]] = .ok [[[[0, 2, 0], [1, 0, 0], [0, 0, 0]]]] := by decide +kernel
example : heatRaster [0, 1, 2] 1 ([⟨0, 2, 0⟩, ⟨1, 3, 0⟩, ⟨5, 7, 0⟩, ⟨1, 1, 0⟩] : List (Pt ℚ Nat)) = .ok [[0, 0, 1], [0, 0, 1], [0, 0, 0]] := by decide +kernel
example : heatOne id [0, 1, 2] 1 ([⟨0, 2, 0⟩, ⟨1, 3, 0⟩] : List (Pt ℚ Nat)) = .ok [[1, 1, 0], [0, 0, -1], [0, 0, -1]] := by decide +kernel
example : EquallySpaced ([0, 1, 2] : List ℚ) 3 0 2 1 := by
  refine ⟨rfl, rfl, rfl, ?_⟩
  intro i x y h1 h2
  rcases i with _ | _ | _ | i <;> simp at h1 h2
  · rw [← h1, ← h2]; norm_num
  · rw [← h1, ← h2]; norm_num

end Gtda.Props
