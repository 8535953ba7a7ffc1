import Verif.Spec.Joined
import Verif.Props.Curves
import Verif.Props.Silhouette
import Verif.Props.Raster
import Verif.Props.Amplitudes
import Verif.Props.Features
import Verif.Props.Polynomials

set_option autoImplicit false
set_option linter.unusedSectionVars false

/-!
# C137: features of joined diagrams
-/

namespace Gtda.Props.Joined
open Gtda.Py Gtda.Parallel Gtda.Diagrams Gtda.Spec.Joined Gtda.Props

section
variable {K Q : Type} [DecidableEq Q]

theorem pointsIn_join (D D' : List (Pt K Q)) (q : Q) : pointsIn (D ++ D') q = pointsIn D q ++ pointsIn D' q := by simp [pointsIn]

theorem joined_get {X X' : List (List (Pt K Q))} {i : Nat} {D D' : List (Pt K Q)} (h : X[i]? = some D) (h' : X'[i]? = some D') : (joined X X')[i]? = some (D ++ D') := by
  simp [joined, List.getElem?_zipWith, h, h']

theorem mem_joined {X X' : List (List (Pt K Q))} {E : List (Pt K Q)} (h : E ∈ joined X X') : ∃ D ∈ X, ∃ D' ∈ X', E = D ++ D' := by
  obtain ⟨i, hi⟩ := List.mem_iff_getElem?.1 h
  unfold joined at hi
  rw [List.getElem?_zipWith] at hi
  cases hA : X[i]? with
  | none => simp [hA] at hi
  | some A =>
    cases hB : X'[i]? with
    | none => simp [hA, hB] at hi
    | some B =>
      simp only [hA, hB, Option.some.injEq] at hi
      exact ⟨A, List.mem_of_getElem? hA, B, List.mem_of_getElem? hB, hi.symm⟩

theorem ne_right {dims : List Q} {X X' : List (List (Pt K Q))} (h : Joinable dims X X') : X' ≠ [] := by
  rintro rfl
  have := h.length
  rw [List.length_nil, List.length_eq_zero_iff] at this
  exact h.ne this

theorem joined_length {dims : List Q} {X X' : List (List (Pt K Q))} (h : Joinable dims X X') : (joined X X').length = X.length := by
  simp [joined, h.length]

theorem joined_ne {dims : List Q} {X X' : List (List (Pt K Q))} (h : Joinable dims X X') : joined X X' ≠ [] := by
  intro h0
  have := joined_length h
  rw [h0, List.length_nil] at this
  exact h.ne (List.length_eq_zero_iff.1 this.symm)

theorem joined_counts {dims : List Q} {X X' : List (List (Pt K Q))} (h : Joinable dims X X') : ∀ q ∈ dims, EqualCounts (joined X X') q := by
  intro q hq E hE E' hE'
  obtain ⟨A, hA, B, hB, rfl⟩ := mem_joined hE
  obtain ⟨A', hA', B', hB', rfl⟩ := mem_joined hE'
  rw [pointsIn_join, pointsIn_join, List.length_append, List.length_append, h.left q hq A hA A' hA', h.right q hq B hB B' hB']

/-- Entries of matrices given diagram by diagram. -/
theorem gives_entries {R : Type} (T : Nat → List (List (Pt K Q)) → PyM (List (List R))) (dims : List Q) (S : Set (List (Pt K Q))) (α : Q → List (Pt K Q) → R) (hT : GivesAmplitudes T dims S α)
    (nJobs : Nat) (hn : 1 ≤ nJobs) (X X' : List (List (Pt K Q))) (h : Joinable dims X X') (hS : ∀ D ∈ X, D ∈ S) (hS' : ∀ D ∈ X', D ∈ S) (hSS : ∀ D ∈ S, ∀ D' ∈ S, D ++ D' ∈ S) :
    ∃ A A' B, T nJobs X = .ok A ∧ T nJobs X' = .ok A' ∧ T nJobs (joined X X') = .ok B ∧ B.length = X.length ∧
      ∀ (i k : Nat) D D' q, X[i]? = some D → X'[i]? = some D' → dims[k]? = some q → entry2 A i k = some (α q D) ∧ entry2 A' i k = some (α q D') ∧ entry2 B i k = some (α q (D ++ D')) := by
  obtain ⟨A, hA, -, -, eA⟩ := hT nJobs X hn h.ne h.left hS
  obtain ⟨A', hA', -, -, eA'⟩ := hT nJobs X' hn (ne_right h) h.right hS'
  obtain ⟨B, hB, hl, -, eB⟩ := hT nJobs (joined X X') hn (joined_ne h) (joined_counts h) (by
    intro D hD
    obtain ⟨A, hA, B, hB, rfl⟩ := mem_joined hD
    exact hSS A (hS A hA) B (hS' B hB))
  refine ⟨A, A', B, hA, hA', hB, hl.trans (joined_length h), ?_⟩
  intro i k D D' q h1 h2 h3
  exact ⟨eA i k D q h1 h3, eA' i k D' q h2 h3, eB i k _ q (joined_get h1 h2) h3⟩

end

section
variable {K Q : Type} [Field K] [LinearOrder K] [IsStrictOrderedRing K]

theorem layerAt_le_iff (D : List (Pt K Q)) (k : Nat) (s c : K) (hc : 0 ≤ c) : layerAt D k s ≤ c ↔ (D.map (fiber s)).countP (fun x => decide (c < x)) ≤ k := by
  by_cases hk : k < D.length
  · obtain ⟨-, h1, h2⟩ := layerAt_isNth D k s hk
    constructor
    · intro h
      refine le_trans (List.countP_mono_left ?_) h1
      intro x _ hx
      simp only [decide_eq_true_eq] at hx ⊢
      exact lt_of_le_of_lt h hx
    · intro h
      by_contra hlt
      have hle := List.countP_mono_left (l := D.map (fiber s)) (p := fun x => decide (layerAt D k s ≤ x)) (q := fun x => decide (c < x)) (by
        intro x _ hx
        simp only [decide_eq_true_eq] at hx ⊢
        exact lt_of_lt_of_le (not_le.1 hlt) hx)
      omega
  · rw [layerAt_beyond D k s (by omega)]
    refine ⟨fun _ => ?_, fun _ => hc⟩
    have := List.countP_le_length (p := fun x => decide (c < x)) (l := D.map (fiber s))
    rw [List.length_map] at this
    omega

theorem layerAt_append (D D' : List (Pt K Q)) (k : Nat) (s : K) : IsLeast {v | ∃ a b, a + b = k ∧ v = max (layerAt D a s) (layerAt D' b s)} (layerAt (D ++ D') k s) := by
  have low : ∀ a b, a + b = k → layerAt (D ++ D') k s ≤ max (layerAt D a s) (layerAt D' b s) := by
    intro a b hab
    have h0 : 0 ≤ max (layerAt D a s) (layerAt D' b s) := le_max_of_le_left (layerAt_nonneg D a s)
    rw [layerAt_le_iff _ _ _ _ h0, List.map_append, List.countP_append]
    have h1 := (layerAt_le_iff D a s _ h0).1 (le_max_left _ _)
    have h2 := (layerAt_le_iff D' b s _ h0).1 (le_max_right _ _)
    omega
  constructor
  · have h0 := layerAt_nonneg (D ++ D') k s
    have h := (layerAt_le_iff (D ++ D') k s _ h0).1 le_rfl
    rw [List.map_append, List.countP_append] at h
    generalize ha : (D.map (fiber s)).countP (fun x => decide (layerAt (D ++ D') k s < x)) = a at h
    refine ⟨a, k - a, by omega, le_antisymm (low a (k - a) (by omega)) (max_le ?_ ?_)⟩
    · exact (layerAt_le_iff D a s _ h0).2 ha.le
    · exact (layerAt_le_iff D' (k - a) s _ h0).2 (by omega)
  · rintro v ⟨a, b, hab, rfl⟩
    exact low a b hab

end

theorem pNorm_append_top (u v : List ℝ) : pNorm ⊤ (u ++ v) = max (pNorm ⊤ u) (pNorm ⊤ v) := by
  unfold pNorm
  simp only [if_true]
  apply le_antisymm
  · rw [foldl_max_iSup]
    refine ⟨le_max_of_le_left ((foldl_max_iSup _ 0 _).1 le_rfl).1, ?_⟩
    intro x hx
    rw [List.map_append, List.mem_append] at hx
    rcases hx with hx | hx
    · exact le_max_of_le_left (((foldl_max_iSup _ 0 _).1 le_rfl).2 x hx)
    · exact le_max_of_le_right (((foldl_max_iSup _ 0 _).1 le_rfl).2 x hx)
  · apply max_le
    · rw [foldl_max_iSup]
      refine ⟨((foldl_max_iSup _ 0 _).1 le_rfl).1, fun x hx => ((foldl_max_iSup _ 0 _).1 le_rfl).2 x ?_⟩
      rw [List.map_append]
      exact List.mem_append_left _ hx
    · rw [foldl_max_iSup]
      refine ⟨((foldl_max_iSup _ 0 _).1 le_rfl).1, fun x hx => ((foldl_max_iSup _ 0 _).1 le_rfl).2 x ?_⟩
      rw [List.map_append]
      exact List.mem_append_right _ hx

theorem pNorm_pow (p : ENNReal) (hp : 0 < p) (hp' : p ≠ ⊤) (v : List ℝ) : pNorm p v ^ p.toReal = (v.map fun x => |x| ^ p.toReal).sum := by
  unfold pNorm
  rw [if_neg hp', ← Real.rpow_mul (List.sum_nonneg (by
    intro x hx
    obtain ⟨y, -, rfl⟩ := List.mem_map.1 hx
    positivity)), one_div, inv_mul_cancel₀ (ENNReal.toReal_pos hp.ne' hp').ne', Real.rpow_one]

section
variable {K Q : Type} [Field K] [LinearOrder K] [IsStrictOrderedRing K] [FloorRing K]

theorem plus_image2 (n : Nat) (f g : Nat → Nat → K) : plus (image2 n f) (image2 n g) = image2 n fun i j => f i j + g i j := zipWith_image2 n _ f g

theorem heatOne_append (G : List (List K) → List (List K)) (s : List K) (n : Nat) (lo hi step : K) (hn : 2 ≤ n) (hs : 0 ≤ step) (h : EquallySpaced s n lo hi step) (hG : Additive n G)
    (D D' : List (Pt K Q)) : ∃ H H', heatOne G s step D = .ok H ∧ heatOne G s step D' = .ok H' ∧ heatOne G s step (D ++ D') = .ok (plus H H') := by
  have : Inhabited K := ⟨0⟩
  rcases eq_or_lt_of_le hs with h0 | h0
  · refine ⟨image2 n fun _ _ => 0, image2 n fun _ _ => 0, by simp [heatOne, ← h0, h.1], by simp [heatOne, ← h0, h.1], ?_⟩
    rw [plus_image2]
    simp [heatOne, ← h0, h.1]
  · have hr := fun E : List (Pt K Q) => (heatRaster_eq s n lo hi step (by omega) h0 h E).1
    obtain ⟨g, hg⟩ := (squareImage_iff n _).mp (hG.size _ (squareImage_image2 n fun (i j : Nat) => ((heatCoords lo hi step D).count ((i : Int), (j : Int)) : K)))
    obtain ⟨g', hg'⟩ := (squareImage_iff n _).mp (hG.size _ (squareImage_image2 n fun (i j : Nat) => ((heatCoords lo hi step D').count ((i : Int), (j : Int)) : K)))
    have hsum : G (image2 n fun (i j : Nat) => ((heatCoords lo hi step (D ++ D')).count ((i : Int), (j : Int)) : K)) = image2 n fun i j => g i j + g' i j := by
      rw [← plus_image2, ← hg, ← hg', ← hG.plus _ _ (squareImage_image2 n _) (squareImage_image2 n _), plus_image2]
      congr 2
      funext i j
      have : heatCoords lo hi step (D ++ D') = heatCoords lo hi step D ++ heatCoords lo hi step D' := by simp [heatCoords]
      rw [this, List.count_append, Nat.cast_add]
    refine ⟨image2 n fun i j => (g j (n - 1 - i) - g (n - 1 - i) j) / step ^ 2, image2 n fun i j => (g' j (n - 1 - i) - g' (n - 1 - i) j) / step ^ 2, ?_, ?_, ?_⟩
    · unfold heatOne
      dsimp only
      rw [if_neg h0.ne', hr, h.1]
      simp only [ok_bind]
      rw [hg, transposeN_image2, zipWith_image2, map_image2, rot90_image2]
    · unfold heatOne
      dsimp only
      rw [if_neg h0.ne', hr, h.1]
      simp only [ok_bind]
      rw [hg', transposeN_image2, zipWith_image2, map_image2, rot90_image2]
    · unfold heatOne
      dsimp only
      rw [if_neg h0.ne', hr, h.1]
      simp only [ok_bind]
      rw [hsum, transposeN_image2, zipWith_image2, map_image2, rot90_image2, plus_image2]
      congr 2
      funext i j
      ring

theorem imageOne_append (G : List (List K) → List (List K)) (s₀ s₁ : List K) (n : Nat) (lo₀ hi₀ step₀ lo₁ hi₁ step₁ : K) (hn : 2 ≤ n) (hs₀ : 0 ≤ step₀) (hs₁ : 0 ≤ step₁)
    (h₀ : EquallySpaced s₀ n lo₀ hi₀ step₀) (h₁ : EquallySpaced s₁ n lo₁ hi₁ step₁) (w : List K) (hw : w.length = n) (hG : Additive n G) (D D' : List (Pt K Q)) :
    ∃ H H', imageOne G s₀ s₁ step₀ step₁ w D = .ok H ∧ imageOne G s₀ s₁ step₀ step₁ w D' = .ok H' ∧ imageOne G s₀ s₁ step₀ step₁ w (D ++ D') = .ok (plus H H') := by
  have : Inhabited K := ⟨0⟩
  by_cases hz : step₀ = 0 ∨ step₁ = 0
  · refine ⟨image2 n fun _ _ => 0, image2 n fun _ _ => 0, by simp [imageOne, hz, h₀.1], by simp [imageOne, hz, h₀.1], ?_⟩
    rw [plus_image2]
    simp [imageOne, hz, h₀.1]
  · have hz' := hz
    rw [not_or] at hz'
    have p0 : 0 < step₀ := lt_of_le_of_ne hs₀ (Ne.symm hz'.1)
    have p1 : 0 < step₁ := lt_of_le_of_ne hs₁ (Ne.symm hz'.2)
    have hr := fun E : List (Pt K Q) => imageRaster_eq s₀ s₁ n lo₀ hi₀ step₀ lo₁ hi₁ step₁ (by omega) p0 p1 h₀ h₁ w hw E
    obtain ⟨g, hg⟩ := (squareImage_iff n _).mp (hG.size _ (squareImage_image2 n fun (i j : Nat) => ((imageCoords lo₀ hi₀ step₀ lo₁ hi₁ step₁ D).count ((i : Int), (j : Int)) : K) * (w[j]?).getD 0))
    obtain ⟨g', hg'⟩ := (squareImage_iff n _).mp (hG.size _ (squareImage_image2 n fun (i j : Nat) => ((imageCoords lo₀ hi₀ step₀ lo₁ hi₁ step₁ D').count ((i : Int), (j : Int)) : K) * (w[j]?).getD 0))
    have hsum : G (image2 n fun (i j : Nat) => ((imageCoords lo₀ hi₀ step₀ lo₁ hi₁ step₁ (D ++ D')).count ((i : Int), (j : Int)) : K) * (w[j]?).getD 0) = image2 n fun i j => g i j + g' i j := by
      rw [← plus_image2, ← hg, ← hg', ← hG.plus _ _ (squareImage_image2 n _) (squareImage_image2 n _), plus_image2]
      congr 2
      funext i j
      have : imageCoords lo₀ hi₀ step₀ lo₁ hi₁ step₁ (D ++ D') = imageCoords lo₀ hi₀ step₀ lo₁ hi₁ step₁ D ++ imageCoords lo₀ hi₀ step₀ lo₁ hi₁ step₁ D' := by simp [imageCoords]
      rw [this, List.count_append, Nat.cast_add, add_mul]
    refine ⟨image2 n fun i j => g j (n - 1 - i) / (step₀ * step₁), image2 n fun i j => g' j (n - 1 - i) / (step₀ * step₁), ?_, ?_, ?_⟩
    · unfold imageOne
      dsimp only
      rw [if_neg hz, hr, h₀.1]
      simp only [ok_bind]
      rw [hg, rot90_image2, map_image2]
    · unfold imageOne
      dsimp only
      rw [if_neg hz, hr, h₀.1]
      simp only [ok_bind]
      rw [hg', rot90_image2, map_image2]
    · unfold imageOne
      dsimp only
      rw [if_neg hz, hr, h₀.1]
      simp only [ok_bind]
      rw [hsum, rot90_image2, map_image2, plus_image2]
      congr 2
      funext i j
      ring

end

section
variable {K Q β : Type} [Field K] [LinearOrder K] [IsStrictOrderedRing K] [FloorRing K] [DecidableEq Q]

/-- Images per dimension, for functions of one diagram which always succeed. -/
theorem perDim_append (f : Q → List (Pt K Q) → PyM (List (List K))) (dims : List Q) (nJobs : Nat) (hn : 1 ≤ nJobs) (X X' : List (List (Pt K Q))) (h : Joinable dims X X')
    (hf : ∀ q ∈ dims, ∀ D D' : List (Pt K Q), ∃ H H', f q D = .ok H ∧ f q D' = .ok H' ∧ f q (D ++ D') = .ok (plus H H')) :
    ∃ R R' S, perDim (fun q Y => Y.mapM (f q)) dims nJobs X = .ok R ∧ perDim (fun q Y => Y.mapM (f q)) dims nJobs X' = .ok R' ∧ perDim (fun q Y => Y.mapM (f q)) dims nJobs (joined X X') = .ok S ∧
      S.length = X.length ∧ ∀ i j, i < X.length → j < dims.length → ∃ H H', entry2 R i j = some H ∧ entry2 R' i j = some H' ∧ entry2 S i j = some (plus H H') := by
  let g : Q → List (Pt K Q) → List (List K) := fun q D => match f q D with | .ok H => H | .error _ => []
  have hg : ∀ q ∈ dims, ∀ D : List (Pt K Q), f q D = .ok (g q D) := by
    intro q hq D
    obtain ⟨H, -, hH, -⟩ := hf q hq D D
    simp only [g, hH]
  refine ⟨_, _, _, perDim_mapM f g dims nJobs X hn h.dims_ne h.ne h.left (fun q hq D _ => hg q hq _), perDim_mapM f g dims nJobs X' hn h.dims_ne (ne_right h) h.right (fun q hq D _ => hg q hq _),
    perDim_mapM f g dims nJobs _ hn h.dims_ne (joined_ne h) (joined_counts h) (fun q hq D _ => hg q hq _), by simp [joined_length h], ?_⟩
  intro i j hi hj
  have hi' : i < X'.length := h.length ▸ hi
  have e1 := List.getElem?_eq_getElem hi
  have e2 := List.getElem?_eq_getElem hi'
  have e3 := List.getElem?_eq_getElem hj
  refine ⟨_, _, by simp only [entry2, List.getElem?_map, e1, e3, Option.map_some, Option.bind_eq_bind, Option.bind_some]; rfl,
    by simp only [entry2, List.getElem?_map, e2, e3, Option.map_some, Option.bind_eq_bind, Option.bind_some]; rfl, ?_⟩
  simp only [entry2, List.getElem?_map, joined_get e1 e2, e3, Option.map_some, Option.bind_eq_bind, Option.bind_some, Option.some.injEq]
  rw [pointsIn_join]
  obtain ⟨H, H', a, b, c⟩ := hf dims[j] (List.getElem_mem hj) (pointsIn X[i] dims[j]) (pointsIn X'[i] dims[j])
  simp only [g, a, b, c]

end

theorem shannon_scale (l : List ℝ) (hl : ∀ x ∈ l, 0 < x) (T U : ℝ) (hT : 0 < T) (hU : 0 < U) :
    ((l.map fun x => x / U).map fun p => -(p * Real.logb 2 p)).sum = T / U * ((l.map fun x => x / T).map fun p => -(p * Real.logb 2 p)).sum + l.sum / U * -Real.logb 2 (T / U) := by
  induction l with
  | nil => simp
  | cons a l ih =>
    have ha := hl a List.mem_cons_self
    have := ih fun x hx => hl x (List.mem_cons_of_mem _ hx)
    simp only [List.map_cons, List.sum_cons]
    rw [this]
    have e : a / U = a / T * (T / U) := by field_simp
    have hlog : Real.logb 2 (a / U) = Real.logb 2 (a / T) + Real.logb 2 (T / U) := by
      rw [e, Real.logb_mul (div_pos ha hT).ne' (div_pos hT hU).ne']
    rw [hlog]
    field_simp
    ring

theorem sum_indicator {Q : Type} [DecidableEq Q] (dims : List Q) (hnd : dims.Nodup) (a : Q) (ha : a ∈ dims) (c : Nat) : (dims.map fun q => if a = q then c else 0).sum = c := by
  induction dims with
  | nil => cases ha
  | cons q ds ih =>
    rw [List.map_cons, List.sum_cons]
    rcases List.mem_cons.1 ha with rfl | hm
    · have : (ds.map fun q => if a = q then c else 0).sum = 0 := by
        rw [List.sum_eq_zero]
        intro x hx
        obtain ⟨q, hq, rfl⟩ := List.mem_map.1 hx
        rw [if_neg]
        intro e
        exact (List.nodup_cons.1 hnd).1 (e ▸ hq)
      rw [this, if_pos rfl, add_zero]
    · rw [if_neg (by intro e; exact (List.nodup_cons.1 hnd).1 (e ▸ hm)), zero_add]
      exact ih (List.nodup_cons.1 hnd).2 hm

theorem countP_dims {K Q : Type} [DecidableEq Q] (dims : List Q) (hnd : dims.Nodup) (D : List (Pt K Q)) (hD : ∀ p ∈ D, p.q ∈ dims) (f : Pt K Q → Bool) :
    D.countP f = (dims.map fun q => D.countP fun p => decide (p.q = q) && f p).sum := by
  induction D with
  | nil => simp
  | cons p D ih =>
    rw [List.countP_cons, ih fun x hx => hD x (List.mem_cons_of_mem _ hx)]
    have e : ∀ q, (p :: D).countP (fun p => decide (p.q = q) && f p) = D.countP (fun p => decide (p.q = q) && f p) + if p.q = q then (if f p then 1 else 0) else 0 := by
      intro q
      rw [List.countP_cons]
      by_cases hq : p.q = q <;> simp [hq]
    simp only [e, List.sum_map_add]
    rw [sum_indicator dims hnd p.q (hD p List.mem_cons_self)]

end Gtda.Props.Joined

namespace Gtda.Props
open Gtda.Py Gtda.Parallel Gtda.Diagrams Gtda.Spec.Joined Gtda.Props.Joined

section
variable {K Q : Type} [Field K] [LinearOrder K] [IsStrictOrderedRing K] [DecidableEq Q]

/-- **C137**, landscapes: layer `k` (counted from 0) of a joined diagram is, at every sampled value, the smallest of the maxima of layer `a` of one diagram and layer `b` of the other with `a + b = k`; so the first
layer is the maximum of the first layers, and no layer gets smaller. -/
theorem C137_landscape (dims : List Q) (sampling : Q → List K) (nLayers nJobs : Nat) (hn : 1 ≤ nJobs) (X X' : List (List (Pt K Q))) (h : Joinable dims X X') :
    ∃ R R' S, landscapeTransform dims sampling nLayers nJobs X = .ok R ∧ landscapeTransform dims sampling nLayers nJobs X' = .ok R' ∧ landscapeTransform dims sampling nLayers nJobs (joined X X') = .ok S ∧
      ∀ (i j k t : Nat) q, i < X.length → dims[j]? = some q → t < (sampling q).length → k < nLayers →
        ∃ v, entry3 S i (j * nLayers + k) t = some v ∧
          IsLeast {u | ∃ a b x y, a + b = k ∧ entry3 R i (j * nLayers + a) t = some x ∧ entry3 R' i (j * nLayers + b) t = some y ∧ u = max x y} v := by
  refine ⟨_, _, _, landscapeTransform_eq dims sampling nLayers nJobs X hn h.dims_ne h.ne h.left, landscapeTransform_eq dims sampling nLayers nJobs X' hn h.dims_ne (ne_right h) h.right,
    landscapeTransform_eq dims sampling nLayers nJobs _ hn h.dims_ne (joined_ne h) (joined_counts h), ?_⟩
  intro i j k t q hi hj ht hk
  have hi' : i < X'.length := h.length ▸ hi
  have e1 := List.getElem?_eq_getElem hi
  have e2 := List.getElem?_eq_getElem hi'
  have e3 := List.getElem?_eq_getElem ht
  refine ⟨_, entry3_landscape dims sampling nLayers _ i j k t _ q _ (joined_get e1 e2) hj hk e3, ?_⟩
  rw [pointsIn_join]
  obtain ⟨hmem, hlow⟩ := layerAt_append (pointsIn X[i] q) (pointsIn X'[i] q) k (sampling q)[t]
  constructor
  · obtain ⟨a, b, hab, hv⟩ := hmem
    exact ⟨a, b, _, _, hab, entry3_landscape dims sampling nLayers _ i j a t _ q _ e1 hj (by omega) e3, entry3_landscape dims sampling nLayers _ i j b t _ q _ e2 hj (by omega) e3, hv⟩
  · rintro u ⟨a, b, x, y, hab, hx, hy, rfl⟩
    rw [entry3_landscape dims sampling nLayers _ i j a t _ q _ e1 hj (by omega) e3, Option.some.injEq] at hx
    rw [entry3_landscape dims sampling nLayers _ i j b t _ q _ e2 hj (by omega) e3, Option.some.injEq] at hy
    exact hlow ⟨a, b, hab, by rw [hx, hy]⟩

/-- Two collections for examples. -/
def jX : List (List (Pt ℚ Nat)) := [[⟨0, 4, 0⟩, ⟨1, 1, 0⟩], [⟨0, 2, 0⟩, ⟨0, 1, 0⟩]]
/-- See `jX`. -/
def jX' : List (List (Pt ℚ Nat)) := [[⟨1, 5, 0⟩], [⟨3, 3, 0⟩]]

theorem jX_joinable : Joinable [0] jX jX' := by
  refine ⟨by decide, by decide, by decide, ?_, ?_⟩ <;> (unfold EqualCounts; decide +kernel)

example : landscapeTransform [0] (fun _ => [1, 2]) 2 1 jX = .ok [[[1, 2], [0, 0]], [[1, 0], [0, 0]]] ∧ landscapeTransform [0] (fun _ => [1, 2]) 2 1 jX' = .ok [[[0, 1], [0, 0]], [[0, 0], [0, 0]]] ∧
    landscapeTransform [0] (fun _ => [1, 2]) 2 1 (joined jX jX') = .ok [[[1, 2], [0, 1]], [[1, 0], [0, 0]]] := by
  refine ⟨?_, ?_, ?_⟩ <;> decide +kernel

/-- **C137**, NumberOfPoints: numbers of points add. -/
theorem C137_number_of_points (dims : List Q) (nJobs : Nat) (hn : 1 ≤ nJobs) (X X' : List (List (Pt K Q))) (h : Joinable dims X X') :
    ∃ A A' B, numberPointsTransform dims nJobs X = .ok A ∧ numberPointsTransform dims nJobs X' = .ok A' ∧ numberPointsTransform dims nJobs (joined X X') = .ok B ∧ B.length = X.length ∧
      ∀ i k, i < X.length → k < dims.length → ∃ a a', entry2 A i k = some a ∧ entry2 A' i k = some a' ∧ entry2 B i k = some (a + a') := by
  obtain ⟨A, A', B, h1, h2, h3, h4, h5⟩ := gives_entries _ dims Set.univ _ (C38_number_of_points (K := K) dims h.dims_ne).1 nJobs hn X X' h (fun _ _ => trivial) (fun _ _ => trivial) (fun _ _ _ _ => trivial)
  refine ⟨A, A', B, h1, h2, h3, h4, ?_⟩
  intro i k hi hk
  obtain ⟨a, b, c⟩ := h5 i k _ _ _ (List.getElem?_eq_getElem hi) (List.getElem?_eq_getElem (h.length ▸ hi)) (List.getElem?_eq_getElem hk)
  exact ⟨_, _, a, b, by rw [c, List.countP_append]⟩

example : numberPointsTransform [0] 1 (joined jX jX') = .ok [[2], [2]] ∧ numberPointsTransform [0] 1 jX = .ok [[1], [2]] ∧ numberPointsTransform [0] 1 jX' = .ok [[1], [0]] := by decide +kernel

/-- **C137**, bottleneck amplitude: the larger of the two. -/
theorem C137_bottleneck (dims : List Q) (nJobs : Nat) (hn : 1 ≤ nJobs) (X X' : List (List (Pt K Q))) (h : Joinable dims X X') (hp : ∀ D ∈ X, ∀ q ∈ dims, ∃ p ∈ D, p.q = q)
    (hp' : ∀ D ∈ X', ∀ q ∈ dims, ∃ p ∈ D, p.q = q) :
    ∃ A A' B, parallelAmplitude (fun _ => bottleneckAmplitudes) dims nJobs X = .ok A ∧ parallelAmplitude (fun _ => bottleneckAmplitudes) dims nJobs X' = .ok A' ∧
      parallelAmplitude (fun _ => bottleneckAmplitudes) dims nJobs (joined X X') = .ok B ∧ B.length = X.length ∧
      ∀ i k, i < X.length → k < dims.length → ∃ a a', entry2 A i k = some a ∧ entry2 A' i k = some a' ∧ entry2 B i k = some (max a a') := by
  have hgives : GivesAmplitudes (fun nJobs (X : List (List (Pt K Q))) => parallelAmplitude (fun _ => bottleneckAmplitudes) dims nJobs X) dims {D | ∀ q ∈ dims, ∃ p ∈ D, p.q = q}
      fun q D => bottleneckOne (pointsIn D q) := by
    apply givesAmplitudes_of (fun _ => bottleneckAmplitudes) (fun _ D => bottleneckOne D) dims h.dims_ne
    intro q hq Y _ hS _
    unfold bottleneckAmplitudes
    rw [mapM_ok (g := bottleneckOne)]
    · rw [List.map_map]; rfl
    · intro D hD
      obtain ⟨E, hE, rfl⟩ := List.mem_map.1 hD
      obtain ⟨p, hp, hpq⟩ := hS E hE q hq
      exact (bottleneckOne_spec _ (List.ne_nil_of_mem ((mem_pointsIn E q p).2 ⟨hp, hpq⟩))).1
  obtain ⟨A, A', B, h1, h2, h3, h4, h5⟩ := gives_entries _ dims _ _ hgives nJobs hn X X' h hp hp' (by
    intro D hD D' _ q hq
    obtain ⟨p, hp, hpq⟩ := hD q hq
    exact ⟨p, List.mem_append_left _ hp, hpq⟩)
  refine ⟨A, A', B, h1, h2, h3, h4, ?_⟩
  intro i k hi hk
  obtain ⟨a, b, c⟩ := h5 i k _ _ _ (List.getElem?_eq_getElem hi) (List.getElem?_eq_getElem (h.length ▸ hi)) (List.getElem?_eq_getElem hk)
  refine ⟨_, _, a, b, ?_⟩
  rw [c, Option.some.injEq, pointsIn_join]
  have ne : ∀ D : List (Pt K Q), (∃ p ∈ D, p.q = dims[k]) → pointsIn D dims[k] ≠ [] := by
    rintro D ⟨p, hp, hpq⟩
    exact List.ne_nil_of_mem ((mem_pointsIn D _ p).2 ⟨hp, hpq⟩)
  have n1 := ne X[i] (hp _ (List.getElem_mem hi) _ (List.getElem_mem hk))
  have n2 := ne (X'[i]'(h.length ▸ hi)) (hp' _ (List.getElem_mem _) _ (List.getElem_mem hk))
  have s1 := (bottleneckOne_spec _ n1).2
  have s2 := (bottleneckOne_spec _ n2).2
  have s3 := (bottleneckOne_spec _ (fun e => n1 (List.append_eq_nil_iff.1 e).1 : pointsIn X[i] dims[k] ++ pointsIn (X'[i]'(h.length ▸ hi)) dims[k] ≠ [])).2
  apply s3.unique
  constructor
  · rcases max_choice (bottleneckOne (pointsIn X[i] dims[k])) (bottleneckOne (pointsIn (X'[i]'(h.length ▸ hi)) dims[k])) with e | e <;> rw [e]
    · obtain ⟨p, hp, e⟩ := s1.1
      exact ⟨p, List.mem_append_left _ hp, e⟩
    · obtain ⟨p, hp, e⟩ := s2.1
      exact ⟨p, List.mem_append_right _ hp, e⟩
  · rintro y ⟨p, hp, rfl⟩
    rcases List.mem_append.1 hp with hp | hp
    · exact le_max_of_le_left (s1.2 ⟨p, hp, rfl⟩)
    · exact le_max_of_le_right (s2.2 ⟨p, hp, rfl⟩)

example : parallelAmplitude (fun _ => bottleneckAmplitudes) [0] 1 (joined jX jX') = .ok [[2], [1]] := by decide +kernel

/-- **C137**, ForgetDimension: with one sampling for all dimensions, the Betti curve of the diagrams with all points put into one dimension is the sum of the Betti curves over all dimensions. -/
theorem C137_forget (dims : List Q) (hd : dims ≠ []) (hnd : dims.Nodup) (q₀ : Q) (s : List K) (nJobs : Nat) (hn : 1 ≤ nJobs) (X : List (List (Pt K Q))) (hX : X ≠ []) (hE : ∀ q ∈ dims, EqualCounts X q)
    (hall : ∀ D ∈ X, ∀ p ∈ D, p.q ∈ dims) :
    ∃ R S, bettiTransform dims (fun _ => s) nJobs X = .ok R ∧ bettiTransform [q₀] (fun _ => s) nJobs (X.map (forgotten q₀)) = .ok S ∧
      ∀ i t, i < X.length → t < s.length → ∃ c : Nat → Nat, (∀ j, j < dims.length → entry3 R i j t = some (c j)) ∧ entry3 S i 0 t = some (((List.range dims.length).map c).sum) := by
  have hlen : ∀ D ∈ X, D.length = (dims.map fun q => (pointsIn D q).length).sum := by
    intro D hD
    have := countP_dims dims hnd D (hall D hD) fun _ => true
    simpa [pointsIn, List.countP_eq_length_filter] using this
  have hES : ∀ q ∈ [q₀], EqualCounts (X.map (forgotten q₀)) q := by
    intro q hq E hE1 E' hE2
    rw [List.mem_singleton] at hq
    subst hq
    obtain ⟨D, hD, rfl⟩ := List.mem_map.1 hE1
    obtain ⟨D', hD', rfl⟩ := List.mem_map.1 hE2
    have e : ∀ D : List (Pt K Q), pointsIn (forgotten q D) q = forgotten q D := by
      intro D
      simp [pointsIn, forgotten]
    rw [e, e]
    simp only [forgotten, List.length_map]
    rw [hlen D hD, hlen D' hD']
    congr 1
    apply List.map_congr_left
    intro r hr
    exact hE r hr D hD D' hD'
  refine ⟨_, _, bettiTransform_eq dims _ nJobs X hn hd hX hE, bettiTransform_eq [q₀] _ nJobs _ hn (by simp) (by simpa using hX) hES, ?_⟩
  intro i t hi ht
  have e1 := List.getElem?_eq_getElem hi
  have e3 := List.getElem?_eq_getElem ht
  refine ⟨fun j => match dims[j]? with | some q => aliveAt X[i] q s[t] | none => 0, ?_, ?_⟩
  · intro j hj
    simp [entry3, e1, e3, List.getElem?_eq_getElem hj]
  · simp only [entry3, List.getElem?_map, e1, e3, Option.map_some, Option.bind_eq_bind, Option.bind_some, List.map_cons, List.getElem?_cons_zero, Option.some.injEq]
    have hr : (List.range dims.length).map (fun j => match dims[j]? with | some q => aliveAt X[i] q s[t] | none => 0) = dims.map fun q => aliveAt X[i] q s[t] := by
      apply List.ext_getElem
      · simp
      · intro j h1 h2
        simp only [List.length_map] at h2
        simp [List.getElem?_eq_getElem h2]
    rw [hr]
    have e : aliveAt (forgotten q₀ X[i]) q₀ s[t] = X[i].countP fun p => decide (p.b ≤ s[t] ∧ s[t] < p.d) := by
      unfold aliveAt forgotten
      rw [List.countP_map]
      apply List.countP_congr
      intro p _
      simp
    rw [e, countP_dims dims hnd _ (hall _ (List.getElem_mem hi))]
    congr 1
    apply List.map_congr_left
    intro q _
    unfold aliveAt
    apply List.countP_congr
    intro p _
    simp

example : bettiTransform [0, 1] (fun _ => [0, 1, 2]) 2 crvX = .ok [[[1, 2, 1], [0, 0, 0]], [[1, 0, 0], [1, 1, 1]]] ∧
    bettiTransform [7] (fun _ => [0, 1, 2]) 2 (crvX.map (forgotten 7)) = .ok [[[1, 2, 1]], [[2, 1, 1]]] ∧ (∀ q ∈ [0, 1], EqualCounts crvX q) ∧ ∀ D ∈ crvX, ∀ p ∈ D, p.q ∈ [0, 1] := by
  refine ⟨?_, ?_, ?_, ?_⟩
  · decide +kernel
  · decide +kernel
  · unfold EqualCounts; decide +kernel
  · decide +kernel

section
variable [FloorRing K]

/-- **C137**, HeatKernel: with a filter which maps sums of images to sums, as Gaussian smoothing does, the image of a joined diagram is the sum of the two images, pixel by pixel, also when the sampled values
coincide. -/
theorem C137_heat (G : List (List K) → List (List K)) (n : Nat) (dims : List Q) (sampling : Q → List K) (lo hi step : Q → K) (nJobs : Nat) (hn : 1 ≤ nJobs) (hb : 2 ≤ n)
    (hs : ∀ q ∈ dims, 0 ≤ step q ∧ EquallySpaced (sampling q) n (lo q) (hi q) (step q)) (hG : Additive n G) (X X' : List (List (Pt K Q))) (h : Joinable dims X X') :
    ∃ R R' S, heatTransform G dims sampling step nJobs X = .ok R ∧ heatTransform G dims sampling step nJobs X' = .ok R' ∧ heatTransform G dims sampling step nJobs (joined X X') = .ok S ∧
      S.length = X.length ∧ ∀ i j, i < X.length → j < dims.length → ∃ H H', entry2 R i j = some H ∧ entry2 R' i j = some H' ∧ entry2 S i j = some (plus H H') :=
  perDim_append _ dims nJobs hn X X' h fun q hq D D' => heatOne_append G _ n _ _ _ hb (hs q hq).1 (hs q hq).2 hG D D'

/-- **C137**, PersistenceImage: as `C137_heat`. -/
theorem C137_image (G : List (List K) → List (List K)) (w : K → K) (n : Nat) (dims : List Q) (s₀ s₁ : Q → List K) (lo₀ hi₀ step₀ lo₁ hi₁ step₁ : Q → K) (nJobs : Nat) (hn : 1 ≤ nJobs) (hb : 2 ≤ n)
    (hs₀ : ∀ q ∈ dims, 0 ≤ step₀ q ∧ EquallySpaced (s₀ q) n (lo₀ q) (hi₀ q) (step₀ q)) (hs₁ : ∀ q ∈ dims, 0 ≤ step₁ q ∧ EquallySpaced (s₁ q) n (lo₁ q) (hi₁ q) (step₁ q)) (hG : Additive n G)
    (X X' : List (List (Pt K Q))) (h : Joinable dims X X') :
    ∃ R R' S, imageTransform G w dims s₀ s₁ step₀ step₁ nJobs X = .ok R ∧ imageTransform G w dims s₀ s₁ step₀ step₁ nJobs X' = .ok R' ∧ imageTransform G w dims s₀ s₁ step₀ step₁ nJobs (joined X X') = .ok S ∧
      S.length = X.length ∧ ∀ i j, i < X.length → j < dims.length → ∃ H H', entry2 R i j = some H ∧ entry2 R' i j = some H' ∧ entry2 S i j = some (plus H H') :=
  perDim_append _ dims nJobs hn X X' h fun q hq D D' => imageOne_append G _ _ n _ _ _ _ _ _ hb (hs₀ q hq).1 (hs₁ q hq).1 (hs₀ q hq).2 (hs₁ q hq).2 _
    (by rw [List.length_map]; exact (hs₁ q hq).2.1) hG D D'

/-- The filter which doubles all pixels maps sums to sums. -/
example : Additive 2 (fun I : List (List ℚ) => plus I I) ∧ EquallySpaced [0, 4] 2 0 4 (4 : ℚ) := by
  constructor
  · have : Inhabited ℚ := ⟨0⟩
    constructor
    · intro I hI
      obtain ⟨f, rfl⟩ := (squareImage_iff 2 _).1 hI
      rw [plus_image2]
      exact squareImage_image2 2 _
    · intro I J hI hJ
      obtain ⟨f, rfl⟩ := (squareImage_iff 2 _).1 hI
      obtain ⟨g, rfl⟩ := (squareImage_iff 2 _).1 hJ
      simp only [plus_image2]
      congr 1
      funext i j
      ring
  · refine ⟨rfl, rfl, rfl, ?_⟩
    intro i x y hx hy
    rcases i with _ | _ | i <;> simp at hx hy
    rw [← hx, ← hy]
    norm_num

example : heatTransform (fun I => plus I I) [0] (fun _ => [0, 1, 2]) (fun _ => 1) 1 jX = .ok [[[[2, 0, 0], [0, 0, 0], [0, 0, -2]]], [[[2, 0, 0], [2, 0, 0], [0, -2, -2]]]] ∧
    heatTransform (fun I => plus I I) [0] (fun _ => [0, 1, 2]) (fun _ => 1) 1 (joined jX jX') = .ok [[[[2, 2, 0], [0, 0, -2], [0, 0, -2]]], [[[2, 0, 0], [2, 0, 0], [0, -2, -2]]]] := by
  refine ⟨?_, ?_⟩ <;> decide +kernel


end
end

section
variable {Q : Type} [DecidableEq Q]

/-- **C137**, Silhouette: the silhouette of a joined diagram is the average of the two silhouettes, weighted by the sums of the lifetimes raised to the power. -/
theorem C137_silhouette (power : ℝ) (hp : 0 < power) (dims : List Q) (sampling : Q → List ℝ) (nJobs : Nat) (hn : 1 ≤ nJobs) (X X' : List (List (Pt ℝ Q))) (h : Joinable dims X X')
    (hv : ∀ D ∈ X, ∀ p ∈ D, p.b ≤ p.d) (hv' : ∀ D ∈ X', ∀ p ∈ D, p.b ≤ p.d) (ho : ∀ q ∈ dims, ∀ D ∈ X, ∃ p ∈ D, p.q = q ∧ p.b ≠ p.d) (ho' : ∀ q ∈ dims, ∀ D ∈ X', ∃ p ∈ D, p.q = q ∧ p.b ≠ p.d) :
    ∃ R R' S, silhouettePow power dims sampling nJobs X = .ok R ∧ silhouettePow power dims sampling nJobs X' = .ok R' ∧ silhouettePow power dims sampling nJobs (joined X X') = .ok S ∧
      ∀ (i j t : Nat) D D' q s, X[i]? = some D → X'[i]? = some D' → dims[j]? = some q → (sampling q)[t]? = some s →
        ∃ w w' v v' : ℝ, w = ((D.filter fun p => p.q = q).map fun p => (p.d - p.b) ^ power).sum ∧ w' = ((D'.filter fun p => p.q = q).map fun p => (p.d - p.b) ^ power).sum ∧ 0 < w ∧ 0 < w' ∧
          entry3 R i j t = some (some v) ∧ entry3 R' i j t = some (some v') ∧ entry3 S i j t = some (some ((w * v + w' * v') / (w + w'))) := by
  have hpl := powLike_rpow power hp
  have hvS : ∀ D ∈ joined X X', ∀ p ∈ D, p.b ≤ p.d := by
    intro E hE p hpE
    obtain ⟨D, hD, D', hD', rfl⟩ := mem_joined hE
    rcases List.mem_append.1 hpE with hpE | hpE
    · exact hv D hD p hpE
    · exact hv' D' hD' p hpE
  have hoS : ∀ q ∈ dims, ∀ D ∈ joined X X', ∃ p ∈ D, p.q = q ∧ p.b ≠ p.d := by
    intro q hq E hE
    obtain ⟨D, hD, D', hD', rfl⟩ := mem_joined hE
    obtain ⟨p, hp, h⟩ := ho q hq D hD
    exact ⟨p, List.mem_append_left _ hp, h⟩
  refine ⟨_, _, _, silhouetteTransform_eq hpl _ dims sampling nJobs X hn h.dims_ne h.ne h.left hv fun _ => ho, silhouetteTransform_eq hpl _ dims sampling nJobs X' hn h.dims_ne (ne_right h) h.right hv' fun _ => ho',
    silhouetteTransform_eq hpl _ dims sampling nJobs _ hn h.dims_ne (joined_ne h) (joined_counts h) hvS fun _ => hoS, ?_⟩
  intro i j t D D' q s h1 h2 h3 h4
  have pos : ∀ E : List (Pt ℝ Q), (∀ p ∈ E, p.b ≤ p.d) → (∃ p ∈ E, p.q = q ∧ p.b ≠ p.d) → 0 < ((E.filter fun p => p.q = q).map fun p => (p.d - p.b) ^ power).sum := by
    intro E hE hoE
    obtain ⟨p, hp, hq, hne⟩ := hoE
    exact weights_pos hpl (pointsIn E q) (fun p hp => hE p ((mem_pointsIn E q p).1 hp).1) ⟨p, (mem_pointsIn E q p).2 ⟨hp, hq⟩, hne⟩
  have w1 := pos D (hv D (List.mem_of_getElem? h1)) (ho q (List.mem_of_getElem? h3) D (List.mem_of_getElem? h1))
  have w2 := pos D' (hv' D' (List.mem_of_getElem? h2)) (ho' q (List.mem_of_getElem? h3) D' (List.mem_of_getElem? h2))
  have ent : ∀ (Y : List (List (Pt ℝ Q))) E, Y[i]? = some E → entry3 (Y.map fun D => dims.map fun q => (sampling q).map fun s => some (weightedTents (fun x : ℝ => x ^ power) (pointsIn D q) s)) i j t =
      some (some (weightedTents (fun x : ℝ => x ^ power) (pointsIn E q) s)) := by
    intro Y E hY
    simp only [entry3, List.getElem?_map, hY, h3, h4, Option.map_some, Option.bind_eq_bind, Option.bind_some]
  refine ⟨_, _, _, _, rfl, rfl, w1, w2, ent X D h1, ent X' D' h2, ?_⟩
  rw [ent _ _ (joined_get h1 h2), Option.some.injEq, Option.some.injEq, pointsIn_join]
  unfold weightedTents
  rw [List.map_append, List.map_append, List.sum_append, List.sum_append]
  change _ / (((D.filter fun p => p.q = q).map fun p => (p.d - p.b) ^ power).sum + ((D'.filter fun p => p.q = q).map fun p => (p.d - p.b) ^ power).sum) = _
  congr 1
  change _ = _ * (_ / ((D.filter fun p => p.q = q).map fun p => (p.d - p.b) ^ power).sum) + _ * (_ / ((D'.filter fun p => p.q = q).map fun p => (p.d - p.b) ^ power).sum)
  rw [mul_div_cancel₀ _ w1.ne', mul_div_cancel₀ _ w2.ne']

/-- Hypotheses of `C137_silhouette` and of the theorems below in a concrete case. -/
def jR : List (List (Pt ℝ Nat)) := [[⟨0, 4, 0⟩, ⟨1, 1, 0⟩]]
/-- See `jR`. -/
def jR' : List (List (Pt ℝ Nat)) := [[⟨1, 5, 0⟩]]

theorem jR_joinable : Joinable [0] jR jR' := by
  refine ⟨by simp, by simp [jR], by simp [jR, jR'], ?_, ?_⟩ <;> simp [EqualCounts, jR, jR']

example : (∀ D ∈ jR, ∀ p ∈ D, p.b ≤ p.d) ∧ (∀ D ∈ jR', ∀ p ∈ D, p.b ≤ p.d) ∧ (∀ q ∈ [0], ∀ D ∈ jR, ∃ p ∈ D, p.q = q ∧ p.b ≠ p.d) ∧ ∀ q ∈ [0], ∀ D ∈ jR', ∃ p ∈ D, p.q = q ∧ p.b ≠ p.d := by
  refine ⟨?_, ?_, ?_, ?_⟩ <;> norm_num [jR, jR']

/-- **C137**, Wasserstein amplitudes: their `p`-th powers add; for `p = ∞`, the larger of the two. -/
theorem C137_wasserstein (p : ENNReal) (hp : 0 < p) (dims : List Q) (nJobs : Nat) (hn : 1 ≤ nJobs) (X X' : List (List (Pt ℝ Q))) (h : Joinable dims X X') :
    ∃ A A' B, parallelAmplitude (fun _ => wassersteinAmplitudes p) dims nJobs X = .ok A ∧ parallelAmplitude (fun _ => wassersteinAmplitudes p) dims nJobs X' = .ok A' ∧
      parallelAmplitude (fun _ => wassersteinAmplitudes p) dims nJobs (joined X X') = .ok B ∧ B.length = X.length ∧
      ∀ i k, i < X.length → k < dims.length → ∃ a a' b, entry2 A i k = some a ∧ entry2 A' i k = some a' ∧ entry2 B i k = some b ∧ 0 ≤ b ∧
        (p ≠ ⊤ → b ^ p.toReal = a ^ p.toReal + a' ^ p.toReal) ∧ (p = ⊤ → b = max a a') := by
  have hgives : GivesAmplitudes (fun nJobs (X : List (List (Pt ℝ Q))) => parallelAmplitude (fun _ => wassersteinAmplitudes p) dims nJobs X) dims Set.univ
      fun q D => pNorm p ((pointsIn D q).map fun x => (x.d - x.b) / 2) := by
    apply givesAmplitudes_of (fun _ => wassersteinAmplitudes p) (fun _ D => pNorm p (D.map fun x => (x.d - x.b) / 2)) dims h.dims_ne
    intro q hq Y _ hS _
    simp [wassersteinAmplitudes, Function.comp_def]
  obtain ⟨A, A', B, h1, h2, h3, h4, h5⟩ := gives_entries _ dims _ _ hgives nJobs hn X X' h (fun _ _ => trivial) (fun _ _ => trivial) (fun _ _ _ _ => trivial)
  refine ⟨A, A', B, h1, h2, h3, h4, ?_⟩
  intro i k hi hk
  obtain ⟨a, b, c⟩ := h5 i k _ _ _ (List.getElem?_eq_getElem hi) (List.getElem?_eq_getElem (h.length ▸ hi)) (List.getElem?_eq_getElem hk)
  rw [pointsIn_join, List.map_append] at c
  refine ⟨_, _, _, a, b, c, by rw [pNorm_eq p hp]; exact lpNorm_nonneg _ _, ?_, ?_⟩
  · intro hp'
    rw [pNorm_pow p hp hp', pNorm_pow p hp hp', pNorm_pow p hp hp', List.map_append, List.sum_append]
  · rintro rfl
    exact pNorm_append_top _ _

example : ∃ b : ℝ, 0 ≤ b ∧ b ^ (2 : ENNReal).toReal = 2 ^ (2 : ENNReal).toReal + 2 ^ (2 : ENNReal).toReal := ⟨Real.sqrt 8, Real.sqrt_nonneg _, by
  rw [ENNReal.toReal_ofNat, Real.rpow_ofNat, Real.rpow_ofNat, Real.sq_sqrt (by norm_num)]; norm_num⟩

/-- **C137**, PersistenceEntropy: the entropy of a joined diagram is the average of the two entropies, weighted by the shares of the diagrams in the sum of all lifetimes, plus the entropy of the two shares. -/
theorem C137_entropy (fill : Option ℝ) (fmax : ℝ) (dims : List Q) (nJobs : Nat) (hn : 1 ≤ nJobs) (X X' : List (List (Pt ℝ Q))) (h : Joinable dims X X')
    (hv : ∀ D ∈ X, ∀ p ∈ D, p.b ≤ p.d) (hv' : ∀ D ∈ X', ∀ p ∈ D, p.b ≤ p.d) (ho : ∀ q ∈ dims, ∀ D ∈ X, ∃ p ∈ D, p.q = q ∧ p.b ≠ p.d) (ho' : ∀ q ∈ dims, ∀ D ∈ X', ∃ p ∈ D, p.q = q ∧ p.b ≠ p.d) :
    ∃ A A' B, entropyTransform false fill fmax dims nJobs X = .ok A ∧ entropyTransform false fill fmax dims nJobs X' = .ok A' ∧ entropyTransform false fill fmax dims nJobs (joined X X') = .ok B ∧
      B.length = X.length ∧ ∀ (i k : Nat) D D' q, X[i]? = some D → X'[i]? = some D' → dims[k]? = some q →
        ∃ l l' e e' : ℝ, l = ((D.filter fun p => p.q = q).map fun p => p.d - p.b).sum ∧ l' = ((D'.filter fun p => p.q = q).map fun p => p.d - p.b).sum ∧ 0 < l ∧ 0 < l' ∧
          entry2 A i k = some (some (e : EReal)) ∧ entry2 A' i k = some (some (e' : EReal)) ∧
          entry2 B i k = some (some ((l / (l + l') * e + l' / (l + l') * e' + shannon2 [l / (l + l'), l' / (l + l')] : ℝ) : EReal)) := by
  obtain ⟨α, hα, hspec⟩ := C37_persistence_entropy fill fmax dims h.dims_ne
  obtain ⟨A, A', B, h1, h2, h3, h4, h5⟩ := gives_entries _ dims _ α hα nJobs hn X X' h hv hv' (by
    intro D hD D' hD' p hp
    rcases List.mem_append.1 hp with hp | hp
    · exact hD p hp
    · exact hD' p hp)
  refine ⟨A, A', B, h1, h2, h3, h4, ?_⟩
  intro i k D D' q hD hD' hq
  have hqm := List.mem_of_getElem? hq
  have vD := hv D (List.mem_of_getElem? hD)
  have vD' := hv' D' (List.mem_of_getElem? hD')
  have nt : ∀ E : List (Pt ℝ Q), (∃ p ∈ E, p.q = q ∧ p.b ≠ p.d) → ¬ TrivialIn E q := by
    rintro E ⟨p, hp, e1, e2⟩ ht
    exact e2 (ht p hp e1)
  have n1 := nt D (ho q hqm D (List.mem_of_getElem? hD))
  have n2 := nt D' (ho' q hqm D' (List.mem_of_getElem? hD'))
  have n3 : ¬ TrivialIn (D ++ D') q := fun ht => n1 fun p hp => ht p (List.mem_append_left _ hp)
  have v3 : ∀ p ∈ D ++ D', p.b ≤ p.d := fun p hp => (List.mem_append.1 hp).elim (vD p) (vD' p)
  obtain ⟨a, b, c⟩ := h5 i k D D' q hD hD' hq
  rw [((hspec q hqm D vD).1 n1).1] at a
  rw [((hspec q hqm D' vD').1 n2).1] at b
  rw [((hspec q hqm _ v3).1 n3).1] at c
  have lpos : ∀ E : List (Pt ℝ Q), (∀ p ∈ E, p.b ≤ p.d) → ¬ TrivialIn E q → 0 < (lifetimesIn E q).sum := by
    intro E hE hT
    exact List.sum_pos _ (lifetimesIn_pos E q hE) fun e => hT ((lifetimesIn_ne_nil E q).1 e)
  have l1 := lpos D vD n1
  have l2 := lpos D' vD' n2
  refine ⟨(lifetimesIn D q).sum, (lifetimesIn D' q).sum, _, _, (lifetimes_sum D q).symm, (lifetimes_sum D' q).symm, l1, l2, a, b, ?_⟩
  rw [c, Option.some.injEq, Option.some.injEq, EReal.coe_eq_coe_iff]
  have hl : lifetimesIn (D ++ D') q = lifetimesIn D q ++ lifetimesIn D' q := by
    unfold lifetimesIn offDiag
    rw [pointsIn_join, List.filter_append, List.map_append]
  unfold relativeLifetimes
  rw [hl, List.sum_append]
  unfold shannon2
  rw [List.map_append, List.map_append, List.sum_append, shannon_scale _ (lifetimesIn_pos D q vD) (lifetimesIn D q).sum _ l1 (add_pos l1 l2),
    shannon_scale _ (lifetimesIn_pos D' q vD') (lifetimesIn D' q).sum _ l2 (add_pos l1 l2)]
  simp only [List.map_cons, List.map_nil, List.sum_cons, List.sum_nil]
  ring

/-- **C137**, ComplexPolynomial: the polynomial of a joined diagram is the product of the polynomials. -/
theorem C137_polynomial (t : PolyType) (dims : List Q) (coeffs : List Nat) (hl : coeffs.length = dims.length) (X X' : List (List (Pt ℝ Q))) (h : Joinable dims X X')
    (ho : ∀ D ∈ X, ∀ q ∈ dims, ∃ p ∈ D, p.q = q ∧ p.b ≠ p.d) :
    ∃ S, polynomialTransform t dims coeffs (joined X X') = .ok S ∧ S.length = X.length ∧
      ∀ (i : Nat) D D', X[i]? = some D → X'[i]? = some D' → S[i]? = some (((dims.zip coeffs).map fun qn =>
        coeffVector (diagramPoly t D qn.1 * diagramPoly t D' qn.1) ((diagramPoly t D qn.1).natDegree + (diagramPoly t D' qn.1).natDegree) qn.2).flatten) := by
  have hdeg : ∀ (D : List (Pt ℝ Q)) q, (diagramPoly t D q).natDegree = (offDiag (pointsIn D q)).length := by
    intro D q
    unfold diagramPoly
    generalize offDiag (pointsIn D q) = l
    have := Polynomial.natDegree_multiset_prod_X_sub_C_eq_card ((l.map (specRoot t) : List ℂ) : Multiset ℂ)
    simpa [Function.comp_def] using this
  refine ⟨_, C39_coefficients_partial t dims coeffs h.dims_ne hl _ (joined_ne h) ?_, by simp [joined_length h], ?_⟩
  · intro E hE q hq ht
    obtain ⟨D, hD, D', hD', rfl⟩ := mem_joined hE
    obtain ⟨p, hp, e1, e2⟩ := ho D hD q hq
    exact e2 (ht p (List.mem_append_left _ hp) e1)
  · intro i D D' h1 h2
    rw [List.getElem?_map, joined_get h1 h2, Option.map_some, Option.some.injEq]
    congr 1
    apply List.map_congr_left
    intro qn _
    have e : offDiag (pointsIn (D ++ D') qn.1) = offDiag (pointsIn D qn.1) ++ offDiag (pointsIn D' qn.1) := by
      unfold offDiag
      rw [pointsIn_join, List.filter_append]
    rw [hdeg, hdeg, e, List.length_append]
    congr 1
    unfold diagramPoly
    rw [e, List.map_append, List.prod_append]

example : ∀ D ∈ jR, ∀ q ∈ [0], ∃ p ∈ D, p.q = q ∧ p.b ≠ p.d := by norm_num [jR]

end

end Gtda.Props
