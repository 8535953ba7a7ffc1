import Verif.Model.TakensSearch
import Verif.Spec.TakensSearch
import Verif.Props.Neighbors
import Verif.Props.TimeSeriesWindows
import Verif.Props.TimeSeriesMore
import Verif.Props.Parallel
import Mathlib.Data.List.GetD
import Mathlib.Tactic.FieldSimp
import Mathlib.Tactic.Positivity
import Mathlib.Tactic.NormNum

set_option autoImplicit false
set_option linter.unusedSectionVars false

/-!
# C110: false nearest neighbours and the search of parameters of Takens embeddings
-/

namespace Gtda.Props

open Py Gtda.TimeSeries Gtda.Spec Gtda.Spec.Neighbors

section

variable {K : Type} [Field K] [LinearOrder K]

theorem slice_fromNeg {α : Type} (l : List α) (a k : Nat) (hk : 1 ≤ k) (ha : a ≤ l.length) :
    pySlice (some (a : Int)) (some (-(k : Int))) 1 l = (l.drop a).take (l.length - k - a) := by
  have h0 : pySlice (some (a : Int)) (some (-(k : Int))) 1 l = pySlice (some (a : Int)) (some ((l.length - k : Nat) : Int)) 1 l := by
    unfold pySlice
    have : sliceStop (l.length : Int) 1 (some (-(k : Int))) = sliceStop (l.length : Int) 1 (some ((l.length - k : Nat) : Int)) := by
      simp only [sliceStop, adjustBound]
      split <;> split <;> (try split) <;> (try split) <;> omega
    dsimp only
    rw [this]
  rw [h0]
  by_cases h : a ≤ l.length - k
  · exact pySlice_block l a (l.length - k) h (by omega)
  · have h1 : l.length - k - a = 0 := by omega
    rw [h1, List.take_zero]
    unfold pySlice
    have hs : sliceStart (l.length : Int) 1 (some (a : Int)) = a := by
      simp only [sliceStart, adjustBound]; split <;> split <;> (try split) <;> omega
    have hz : sliceStop (l.length : Int) 1 (some ((l.length - k : Nat) : Int)) = ((l.length - k : Nat) : Int) := by
      simp only [sliceStop, adjustBound]; split <;> split <;> (try split) <;> omega
    dsimp only
    rw [hs, hz]
    have hl : sliceLen (a : Int) ((l.length - k : Nat) : Int) 1 = 0 := by
      unfold sliceLen
      split
      · split <;> omega
      · split <;> omega
    rw [hl]
    rfl

theorem second_spec (query : Nat → List K → List Nat) (hq : Correct query) (r : List K) (h : 2 ≤ r.length) : (query 2 r).getD 1 0 < r.length := by
  obtain ⟨q1, _, q3, _⟩ := hq 2 r h
  refine q3 _ ?_
  rw [List.getD_eq_getElem _ _ (by omega)]
  exact List.getElem_mem _

/-- What is counted, without slices and rotations. -/
theorem fnn_eq (query : Nat → List K → List Nat) (hq : Correct query) (X : List K) (τ d stride : Nat) (hτ : 1 ≤ τ) (hd : 1 ≤ d) (E : List (List K))
    (hE : takens1 τ d stride true X = .ok E) (hlen : E.length ≤ X.length) (h2 : 2 ≤ E.length) :
    falseNeighbors query X τ d stride = .ok ((List.range (E.length - d * τ)).countP fun (i : Nat) =>
      criteria (variance X)
        (X.getD (X.length - E.length + i + d * τ) 0 - X.getD ((secondNeighbors query E).getD (i + d * τ) (0, 0)).1 0)
        ((secondNeighbors query E).getD i (0, 0)).2) := by
  have hs : 1 ≤ d * τ := Nat.mul_pos hd hτ
  unfold falseNeighbors
  rw [hE, ok_bind, if_neg (by omega)]
  have hnl : (secondNeighbors query E).length = E.length := by simp [secondNeighbors]
  have hnb : ∀ p ∈ secondNeighbors query E, p.1 < X.length := by
    intro p hp
    obtain ⟨e, _, rfl⟩ := List.mem_map.1 hp
    have := second_spec query hq (E.map fun f => sqDist e f) (by simpa using h2)
    rw [List.length_map] at this
    dsimp only
    omega
  have hfirst : ((secondNeighbors query E).mapM fun p => npIndex X (p.1 : Int)) = .ok ((secondNeighbors query E).map fun p => X.getD p.1 0) := by
    refine mapM_ok fun p hp => ?_
    rw [npIndex_nat X p.1 (hnb p hp), List.getD_eq_getElem _ _ (hnb p hp)]
  generalize secondNeighbors query E = nb at *
  dsimp only
  rw [hfirst, ok_bind]
  have hcast : ((X.length : Int) - E.length) = ((X.length - E.length : Nat) : Int) := by omega
  rw [hcast, pySlice_toNeg _ _ hs, pySlice_toNeg _ _ hs, slice_fromNeg _ _ _ hs (by rw [List.length_rotate]; omega)]
  simp only [List.length_rotate, List.length_map, hnl]
  set s := d * τ with hsdef
  set m := E.length with hm
  set n := X.length with hn
  have hk : n - s - (n - m) = m - s := by omega
  rw [hk]
  have e1 : ((X.rotate s).drop (n - m)).take (m - s) = (List.range (m - s)).map fun (i : Nat) => X.getD (n - m + i + s) 0 := by
    apply List.ext_getElem
    · simp only [List.length_take, List.length_drop, List.length_rotate, List.length_map, List.length_range]
      omega
    · intro i h1 h2
      have hi : i < m - s := by simpa using h2
      rw [List.getElem_take, List.getElem_drop, List.getElem_rotate, List.getElem_map, List.getElem_range, List.getD_eq_getElem _ _ (by omega)]
      congr 1
      exact Nat.mod_eq_of_lt (by omega)
  have e2 : ((nb.map fun p => X.getD p.1 0).rotate s).take (m - s) = (List.range (m - s)).map fun (i : Nat) => X.getD (nb.getD (i + s) (0, 0)).1 0 := by
    apply List.ext_getElem
    · simp only [List.length_take, List.length_rotate, List.length_map, List.length_range]
      omega
    · intro i h1 h2
      have hi : i < m - s := by simpa using h2
      rw [List.getElem_take, List.getElem_rotate, List.getElem_map, List.getElem_map, List.getElem_range, List.getD_eq_getElem nb _ (by omega)]
      congr 2
      simp only [List.length_map, hnl]
      congr 1
      exact Nat.mod_eq_of_lt (by omega)
  have e3 : (nb.map Prod.snd).take (m - s) = (List.range (m - s)).map fun (i : Nat) => (nb.getD i (0, 0)).2 := by
    apply List.ext_getElem
    · simp only [List.length_take, List.length_map, List.length_range]
      omega
    · intro i h1 h2
      have hi : i < m - s := by simpa using h2
      rw [List.getElem_take, List.getElem_map, List.getElem_map, List.getElem_range, List.getD_eq_getElem nb _ (by omega)]
  rw [e1, e2, e3]
  unfold npSub
  rw [if_pos (by simp), ok_bind]
  have e4 : ∀ (l : List Nat) (f g h : Nat → K), (List.zipWith (· - ·) (l.map f) (l.map g)).zip (l.map h) = l.map fun i => (f i - g i, h i) := by
    intro l f g h
    induction l with
    | nil => rfl
    | cons a t ih => simp only [List.map_cons, List.zipWith_cons_cons, List.zip_cons_cons, ih]
  rw [e4, List.countP_map]
  rfl

theorem embedding_unique {α : Type} (τ d stride first : Nat) (X : List α) (E E' : List (List α)) (h : IsDelayEmbedding τ d stride first X E)
    (h' : IsDelayEmbedding τ d stride first X E') : E = E' := by
  have hl : E.length = E'.length := by rw [h.count, h'.count]
  apply List.ext_getElem hl
  intro i h1 h2
  apply List.ext_getElem?
  intro k
  by_cases hk : k < d
  · rw [(h.coords i h1 k hk).2, (h'.coords i h2 k hk).2]
  · rw [List.getElem?_eq_none (by rw [h.dims i h1]; omega), List.getElem?_eq_none (by rw [h'.dims i h2]; omega)]

theorem embedding_map {α β : Type} (τ d stride first : Nat) (X : List α) (E : List (List α)) (h : IsDelayEmbedding τ d stride first X E) (f : α → β) :
    IsDelayEmbedding τ d stride first (X.map f) (E.map (List.map f)) := by
  refine ⟨?_, ?_, ?_⟩
  · rw [List.length_map, List.length_map, h.count]
  · intro i hi
    rw [List.getElem_map, List.length_map]
    exact h.dims i (by simpa using hi)
  · intro i hi k hk
    obtain ⟨a, b⟩ := h.coords i (by simpa using hi) k hk
    rw [List.length_map]
    refine ⟨a, ?_⟩
    rw [List.getElem_map, List.getElem?_map, List.getElem?_map, b]

theorem takens1_length {α : Type} (X : List α) (τ d stride : Nat) (hd : 1 ≤ d) (hs : 1 ≤ stride) (E : List (List α)) (hE : takens1 τ d stride true X = .ok E) :
    τ * (d - 1) < X.length ∧ IsDelayEmbedding τ d stride ((X.length - τ * (d - 1) - 1) % stride) X E ∧ E.length ≤ X.length := by
  have h : τ * (d - 1) < X.length := by
    by_contra hc
    unfold takens1 at hE
    rw [takensIndices_err _ _ _ _ _ hs hd (by omega)] at hE
    cases hE
  obtain ⟨E', h1, h2⟩ := takens1_ok X τ d stride true hd h
  rw [hE] at h1
  cases h1
  refine ⟨h, h2, ?_⟩
  rw [h2.count]
  have := Nat.div_le_self (X.length - τ * (d - 1) - 1) stride
  omega

/-- The outcome by the length of the series. -/
theorem fnn_cases (query : Nat → List K → List Nat) (X : List K) (τ d stride : Nat) (hd : 1 ≤ d) (hs : 1 ≤ stride) :
    (X.length < τ * (d - 1) + 1 + stride → falseNeighbors query X τ d stride = .error .valueError) ∧
    (τ * (d - 1) + 1 + stride ≤ X.length → ∃ E, takens1 τ d stride true X = .ok E ∧ 2 ≤ E.length ∧ E.length ≤ X.length) := by
  constructor
  · intro h
    unfold falseNeighbors
    cases hE : takens1 τ d stride true X with
    | error e =>
        by_cases hc : X.length ≤ τ * (d - 1)
        · unfold takens1 at hE
          rw [takensIndices_err _ _ _ _ _ hs hd hc] at hE
          cases hE
          rfl
        · obtain ⟨E', h1, _⟩ := takens1_ok X τ d stride true hd (by omega)
          rw [hE] at h1
          cases h1
    | ok E =>
        obtain ⟨h1, h2, _⟩ := takens1_length X τ d stride hd hs E hE
        rw [ok_bind, if_pos]
        rw [h2.count, Nat.div_eq_of_lt (by omega)]
        omega
  · intro h
    obtain ⟨E, h1, h2⟩ := takens1_ok X τ d stride true hd (by omega)
    refine ⟨E, h1, ?_, (takens1_length X τ d stride hd hs E h1).2.2⟩
    rw [h2.count]
    have := Nat.div_pos (a := X.length - τ * (d - 1) - 1) (b := stride) (by omega) (by omega)
    omega

/-- C110: the number of false nearest neighbours is refused for series of fewer than `τ (d - 1) + 1 + stride` values, and given for all others. -/
theorem C110_short (query : Nat → List K → List Nat) (hq : Correct query) (X : List K) (τ d stride : Nat) (hτ : 1 ≤ τ) (hd : 1 ≤ d) (hs : 1 ≤ stride) :
    (X.length < τ * (d - 1) + 1 + stride → falseNeighbors query X τ d stride = .error .valueError) ∧
    (τ * (d - 1) + 1 + stride ≤ X.length → ∃ c, falseNeighbors query X τ d stride = .ok c ∧ c ≤ X.length - d * τ) := by
  obtain ⟨h1, h2⟩ := fnn_cases query X τ d stride hd hs
  refine ⟨h1, fun h => ?_⟩
  obtain ⟨E, hE, e2, e3⟩ := h2 h
  refine ⟨_, fnn_eq query hq X τ d stride hτ hd E hE e3 e2, ?_⟩
  refine le_trans List.countP_le_length ?_
  rw [List.length_range]
  omega

theorem row_eq (X : List K) (τ d s o : Nat) (E : List (List K)) (h : IsDelayEmbedding τ d s o X E) (i : Nat) (hi : i < E.length) :
    E[i] = (List.range d).map fun (k : Nat) => X.getD (o + i * s + k * τ) 0 := by
  apply List.ext_getElem?
  intro k
  by_cases hk : k < d
  · have := (h.coords i hi k hk).2
    rw [this, List.getElem?_map, List.getElem?_range hk]
    have hlt := (h.coords i hi k hk).1
    rw [List.getElem?_eq_getElem hlt, Option.map_some, List.getD_eq_getElem _ _ hlt]
  · rw [List.getElem?_eq_none (by rw [h.dims i hi]; omega), List.getElem?_eq_none (by simp; omega)]

theorem sqDist_eq (X : List K) (τ d s o : Nat) (E : List (List K)) (h : IsDelayEmbedding τ d s o X E) (i j : Nat) (hi : i < E.length) (hj : j < E.length) :
    sqDist E[i] E[j] = sqDelay X τ d (o + i * s) (o + j * s) := by
  rw [row_eq X τ d s o E h i hi, row_eq X τ d s o E h j hj]
  unfold sqDist sqDelay
  rw [List.zip_map', List.map_map]
  rfl

/-- C110, what is computed: the `i`-th of the `m` embedded points starts at time `o + i stride`. For the second `nn i` of the two embedded points nearest to the `i`-th one (the first one is the `i`-th
one itself unless it has duplicates), the number of those `i < m - d τ` for which the distance of the points `i` and `nn i` is not zero, less than twice the standard deviation, and ten times that distance
is less than the difference of the values at the times `n - m + i + d τ` and `nn (i + d τ)`, where `n` is the length of the series. -/
theorem C110_counts (query : Nat → List K → List Nat) (hq : Correct query) (X : List K) (τ d stride : Nat) (hτ : 1 ≤ τ) (hd : 1 ≤ d) (m o : Nat)
    (hm : X.length = o + (m - 1) * stride + τ * (d - 1) + 1) (ho : o < stride) (h2 : 2 ≤ m) :
    ∃ nn : Nat → Nat,
      (∀ i < m, nn i < m ∧ ∃ a < m, a ≠ nn i ∧ sqDelay X τ d (o + i * stride) (o + a * stride) ≤ sqDelay X τ d (o + i * stride) (o + nn i * stride) ∧
        ∀ j < m, j ≠ a → j ≠ nn i → sqDelay X τ d (o + i * stride) (o + nn i * stride) ≤ sqDelay X τ d (o + i * stride) (o + j * stride)) ∧
      falseNeighbors query X τ d stride = .ok ((List.range (m - d * τ)).countP fun (i : Nat) =>
        decide (sqDelay X τ d (o + i * stride) (o + nn i * stride) ≠ 0 ∧
          100 * sqDelay X τ d (o + i * stride) (o + nn i * stride) < (X.getD (X.length - m + i + d * τ) 0 - X.getD (nn (i + d * τ)) 0) ^ 2 ∧
          sqDelay X τ d (o + i * stride) (o + nn i * stride) < 4 * meanSquare X)) := by
  have hs : 1 ≤ stride := by omega
  have hms : stride ≤ (m - 1) * stride := Nat.le_mul_of_pos_left _ (by omega)
  obtain ⟨E, hE, e2, e3⟩ := (fnn_cases query X τ d stride hd hs).2 (by omega)
  obtain ⟨g1, g2, g3⟩ := takens1_length X τ d stride hd hs E hE
  have hL : X.length - τ * (d - 1) - 1 = o + stride * (m - 1) := by rw [Nat.mul_comm stride]; omega
  rw [hL, Nat.add_mul_mod_self_left, Nat.mod_eq_of_lt ho] at g2
  have hEm : E.length = m := by rw [g2.count, hL, Nat.add_mul_div_left _ _ (by omega), Nat.div_eq_of_lt ho]; omega
  have hrow : ∀ i (hi : i < E.length), (E.map fun f => sqDist E[i] f) = (List.range m).map fun (j : Nat) => sqDelay X τ d (o + i * stride) (o + j * stride) := by
    intro i hi
    apply List.ext_getElem
    · simp [hEm]
    · intro j h1 h2
      rw [List.getElem_map, List.getElem_map, List.getElem_range]
      exact sqDist_eq X τ d stride o E g2 i j hi (by simpa using h1)
  have hget : ∀ i j, j < m → ((List.range m).map fun (j : Nat) => sqDelay X τ d (o + i * stride) (o + j * stride)).getD j 0 = sqDelay X τ d (o + i * stride) (o + j * stride) := by
    intro i j hj
    rw [List.getD_eq_getElem _ _ (by simpa using hj), List.getElem_map, List.getElem_range]
  let nn : Nat → Nat := fun i => (query 2 ((List.range m).map fun (j : Nat) => sqDelay X τ d (o + i * stride) (o + j * stride))).getD 1 0
  have hnn : ∀ i, nn i < m := fun i => by
    have := second_spec query hq ((List.range m).map fun (j : Nat) => sqDelay X τ d (o + i * stride) (o + j * stride)) (by simpa using h2)
    rw [List.length_map, List.length_range] at this
    exact this
  have hnb : ∀ i, i < m → (secondNeighbors query E).getD i (0, 0) = (nn i, sqDelay X τ d (o + i * stride) (o + nn i * stride)) := by
    intro i hi
    rw [List.getD_eq_getElem _ _ (by simp [secondNeighbors]; omega)]
    unfold secondNeighbors
    rw [List.getElem_map]
    dsimp only
    rw [hrow i (by omega)]
    exact Prod.ext rfl (hget i _ (hnn i))
  refine ⟨nn, ?_, ?_⟩
  · intro i hi
    refine ⟨hnn i, ?_⟩
    obtain ⟨q1, q2, q3, q4, q5⟩ := hq 2 ((List.range m).map fun (j : Nat) => sqDelay X τ d (o + i * stride) (o + j * stride)) (by simpa using h2)
    have hnn' : nn i = (query 2 ((List.range m).map fun (j : Nat) => sqDelay X τ d (o + i * stride) (o + j * stride))).getD 1 0 := rfl
    generalize query 2 ((List.range m).map fun (j : Nat) => sqDelay X τ d (o + i * stride) (o + j * stride)) = q at *
    match q, q1 with
    | [a, b], _ =>
        have hb : nn i = b := hnn'
        rw [hb]
        have ha' : a < m := by simpa using q3 a (by simp)
        have hb' : b < m := by simpa using q3 b (by simp)
        refine ⟨a, ha', fun h => by subst h; simp at q2, ?_, ?_⟩
        · have := (List.pairwise_cons.1 q4).1 b (by simp)
          rwa [hget i a ha', hget i b hb'] at this
        · intro j hj hja hjb
          have := q5 b (by simp) j (by simpa using hj) (by simp [hja, hjb])
          rwa [hget i b hb', hget i j hj] at this
  · rw [fnn_eq query hq X τ d stride hτ hd E hE g3 e2, hEm]
    congr 1
    apply List.countP_congr
    intro i hi
    have hi' : i < m - d * τ := by simpa using hi
    rw [hnb i (by omega), hnb (i + d * τ) (by omega)]
    unfold criteria
    simp only [Bool.and_eq_true, decide_eq_true_eq]
    exact and_assoc

/-- A series of nine values with `τ = 1`, `d = 2` and `stride` 2: four embedded points, the first of which starts at time 1. -/
example : ([0, 3, 1, 4, 1, 5, 9, 2, 6] : List ℚ).length = 1 + (4 - 1) * 2 + 1 * (2 - 1) + 1 ∧ (1 : Nat) < 2 ∧ 2 ≤ 4 := by decide

/-- C110, what is computed for `stride` 1: for the second `nn i` of the two embedded points nearest to the `i`-th one (the first one is the `i`-th one itself unless it has duplicates), the
number of those `i` for which the distance of the points `i` and `nn i` is not zero, less than twice the standard deviation, and ten times that distance is less than the difference of the
values at the times `i + (2 d - 1) τ` and `nn (i + d τ)`. -/
theorem C110_counts_partial (query : Nat → List K → List Nat) (hq : Correct query) (X : List K) (τ d : Nat) (hτ : 1 ≤ τ) (hd : 1 ≤ d) (m : Nat) (hm : X.length = m + τ * (d - 1)) (h2 : 2 ≤ m) :
    ∃ nn : Nat → Nat,
      (∀ i < m, nn i < m ∧ ∃ a < m, a ≠ nn i ∧ sqDelay X τ d i a ≤ sqDelay X τ d i (nn i) ∧
        ∀ j < m, j ≠ a → j ≠ nn i → sqDelay X τ d i (nn i) ≤ sqDelay X τ d i j) ∧
      falseNeighbors query X τ d 1 = .ok ((List.range (m - d * τ)).countP fun (i : Nat) =>
        decide (sqDelay X τ d i (nn i) ≠ 0 ∧ 100 * sqDelay X τ d i (nn i) < (X.getD (i + (2 * d - 1) * τ) 0 - X.getD (nn (i + d * τ)) 0) ^ 2 ∧
          sqDelay X τ d i (nn i) < 4 * meanSquare X)) := by
  obtain ⟨nn, n1, n2⟩ := C110_counts query hq X τ d 1 hτ hd m 0 (by omega) (by omega) h2
  simp only [Nat.zero_add, Nat.mul_one] at n1 n2
  refine ⟨nn, n1, n2.trans ?_⟩
  congr 1
  apply List.countP_congr
  intro i _
  have hidx : X.length - m + i + d * τ = i + (2 * d - 1) * τ := by
    have : (2 * d - 1) * τ = τ * (d - 1) + d * τ := by
      obtain ⟨e, rfl⟩ : ∃ e, d = e + 1 := ⟨d - 1, by omega⟩
      have h1 : 2 * (e + 1) - 1 = e + (e + 1) := by omega
      rw [h1, Nat.add_sub_cancel]
      ring
    omega
  rw [hidx]

end

section

variable {K : Type} [Field K] [LinearOrder K] [IsStrictOrderedRing K]

theorem ramp_get (n i : Nat) (h : i < n) : (ramp K n).getD i 0 = (i : K) := by
  unfold ramp
  rw [List.getD_eq_getElem _ _ (by simpa using h), List.getElem_map, List.getElem_range]

theorem ramp_sq (n τ d i j : Nat) (hi : ∀ k < d, i + k * τ < n) (hj : ∀ k < d, j + k * τ < n) : sqDelay (ramp K n) τ d i j = (d : K) * ((i : K) - j) ^ 2 := by
  unfold sqDelay
  have : ((List.range d).map fun (k : Nat) => ((ramp K n).getD (i + k * τ) 0 - (ramp K n).getD (j + k * τ) 0) ^ 2) = (List.range d).map fun _ => ((i : K) - j) ^ 2 := by
    apply List.map_congr_left
    intro k hk
    rw [ramp_get n _ (hi k (List.mem_range.1 hk)), ramp_get n _ (hj k (List.mem_range.1 hk))]
    push_cast
    ring
  rw [this, List.map_const', List.sum_replicate, List.length_range, nsmul_eq_mul]

/-- C110 fails: along the series 0, 1, 2, … no two points are false neighbours in the sense of Kennel, Brown and Abarbanel, in any dimension, but if the time delay is large enough,
every point is counted. -/
theorem C110_refuted_ramp (query : Nat → List K → List Nat) (hq : Correct query) (n τ d : Nat) (hτ : 1 ≤ τ) (hd : 1 ≤ d) (hn : τ * (d - 1) + d * τ ≤ n) (hn2 : τ * (d - 1) + 2 ≤ n)
    (hlarge : 100 * (d : K) < ((τ * (d - 1) : Nat) - 1 : K) ^ 2) (hpos : 1 ≤ τ * (d - 1)) (hvar : (d : K) < 4 * meanSquare (ramp K n)) :
    falseNeighbors query (ramp K n) τ d 1 = .ok (n - (τ * (d - 1) + d * τ)) ∧
      ∀ i j, i + d * τ < n → j + d * τ < n → ¬ FalsePair (ramp K n) τ d i j := by
  have hkm : ∀ m i, n = m + τ * (d - 1) → i < m → ∀ k < d, i + k * τ < n := by
    intro m i hm hi k hk
    have : k * τ ≤ τ * (d - 1) := by rw [Nat.mul_comm]; exact Nat.mul_le_mul_left _ (by omega)
    omega
  constructor
  · obtain ⟨m, hm⟩ : ∃ m, n = m + τ * (d - 1) := ⟨n - τ * (d - 1), by omega⟩
    have hl : (ramp K n).length = m + τ * (d - 1) := by simp [ramp, hm]
    obtain ⟨nn, h1, h2⟩ := C110_counts_partial query hq (ramp K n) τ d hτ hd m hl (by omega)
    have hdK : (0 : K) < d := by exact_mod_cast hd
    have hnn : ∀ i, i < m → (nn i = i + 1 ∨ nn i + 1 = i) := by
      intro i hi
      obtain ⟨a1, a, a2, a3, a4, a5⟩ := h1 i hi
      rw [ramp_sq n τ d i a (hkm m i hm hi) (hkm m a hm a2), ramp_sq n τ d i (nn i) (hkm m i hm hi) (hkm m _ hm a1)] at a4
      have hsq : ∀ j < m, j ≠ a → j ≠ nn i → ((i : K) - nn i) ^ 2 ≤ ((i : K) - j) ^ 2 := by
        intro j hj j1 j2
        have := a5 j hj j1 j2
        rw [ramp_sq n τ d i (nn i) (hkm m i hm hi) (hkm m _ hm a1), ramp_sq n τ d i j (hkm m i hm hi) (hkm m j hm hj)] at this
        exact le_of_mul_le_mul_left this hdK
      have ha4 : ((i : K) - a) ^ 2 ≤ ((i : K) - nn i) ^ 2 := le_of_mul_le_mul_left a4 hdK
      have hsqz : ∀ j k : Nat, ((i : K) - j) ^ 2 ≤ ((i : K) - k) ^ 2 → ((i : Int) - j) ^ 2 ≤ ((i : Int) - k) ^ 2 := by
        intro j k h
        exact_mod_cast h
      have hi0 : nn i ≠ i := by
        intro h
        have := hsqz _ _ ha4
        rw [h] at this
        have h0 : ((i : Int) - a) ^ 2 ≤ 0 := by simpa using this
        have : (i : Int) - a = 0 := by
          by_contra hc
          have := pow_pos (abs_pos.2 hc) 2
          rw [sq_abs] at this
          omega
        omega
      have hai : a = i := by
        by_contra hc
        have h0 := hsqz _ _ (hsq i hi (fun h => hc h.symm) (fun h => hi0 h.symm))
        have h0' : ((i : Int) - nn i) ^ 2 ≤ 0 := by simpa using h0
        have : (i : Int) - nn i = 0 := by
          by_contra hc
          have := pow_pos (abs_pos.2 hc) 2
          rw [sq_abs] at this
          omega
        omega
      by_contra hc
      push Not at hc
      have hex : ∃ j < m, ((j : Int) - i = 1 ∨ (i : Int) - j = 1) := by
        by_cases h : i + 1 < m
        · exact ⟨i + 1, h, by omega⟩
        · exact ⟨i - 1, by omega, by omega⟩
      obtain ⟨j, hj, hj1⟩ := hex
      have h0 := hsqz _ _ (hsq j hj (by omega) (by omega))
      have hone : ((i : Int) - j) ^ 2 = 1 := by
        rcases hj1 with h | h
        · have : (i : Int) - j = -1 := by omega
          rw [this]; rfl
        · rw [h]; rfl
      rw [hone] at h0
      have : |(i : Int) - nn i| ≤ 1 := by
        by_contra hcc
        push Not at hcc
        have h4 : (2 : Int) ≤ |(i : Int) - nn i| := hcc
        have := sq_abs ((i : Int) - nn i)
        nlinarith
      rw [abs_le] at this
      omega
    have hone : ∀ i, i < m → ((i : K) - nn i) ^ 2 = 1 := by
      intro i hi
      rcases hnn i hi with h | h
      · rw [h]; push_cast; ring
      · have : (i : K) = nn i + 1 := by exact_mod_cast h.symm
        rw [this]; ring
    rw [h2]
    congr 1
    have hcount : ∀ i ∈ List.range (m - d * τ), (fun (i : Nat) =>
        decide (sqDelay (ramp K n) τ d i (nn i) ≠ 0 ∧ 100 * sqDelay (ramp K n) τ d i (nn i) < ((ramp K n).getD (i + (2 * d - 1) * τ) 0 - (ramp K n).getD (nn (i + d * τ)) 0) ^ 2 ∧
          sqDelay (ramp K n) τ d i (nn i) < 4 * meanSquare (ramp K n))) i = true := by
      intro i hi
      have hi' : i < m - d * τ := List.mem_range.1 hi
      have hidx : (2 * d - 1) * τ = τ * (d - 1) + d * τ := by
        obtain ⟨e, rfl⟩ : ∃ e, d = e + 1 := ⟨d - 1, by omega⟩
        have h1 : 2 * (e + 1) - 1 = e + (e + 1) := by omega
        rw [h1, Nat.add_sub_cancel]
        ring
      have hlt : nn (i + d * τ) < m := (h1 (i + d * τ) (by omega)).1
      rw [decide_eq_true_eq, ramp_sq n τ d i (nn i) (hkm m i hm (by omega)) (hkm m _ hm (h1 i (by omega)).1), hone i (by omega), mul_one,
        ramp_get n _ (by omega), ramp_get n _ (by omega)]
      refine ⟨ne_of_gt hdK, lt_of_lt_of_le hlarge ?_, hvar⟩
      have hp1 : (1 : K) ≤ ((τ * (d - 1) : Nat) : K) := by exact_mod_cast hpos
      have hlow : ((τ * (d - 1) : Nat) - 1 : K) ≤ ((i + (2 * d - 1) * τ : Nat) : K) - (nn (i + d * τ) : K) := by
        have : nn (i + d * τ) + τ * (d - 1) ≤ i + (2 * d - 1) * τ + 1 := by
          rcases hnn (i + d * τ) (by omega) with h | h <;> omega
        have h' : ((nn (i + d * τ) + τ * (d - 1) : Nat) : K) ≤ ((i + (2 * d - 1) * τ + 1 : Nat) : K) := by exact_mod_cast this
        push_cast at h' ⊢
        linarith
      exact pow_le_pow_left₀ (by linarith) hlow 2
    rw [List.countP_eq_length.2 hcount, List.length_range]
    omega
  · intro i j hi hj h
    unfold FalsePair at h
    have hk : ∀ x, x + d * τ < n → ∀ k < d, x + k * τ < n := by
      intro x hx k hk
      have : k * τ ≤ d * τ := Nat.mul_le_mul_right _ (by omega)
      omega
    rw [ramp_sq n τ d i j (hk i hi) (hk j hj), ramp_get n _ hi, ramp_get n _ hj] at h
    have h0 : (((i + d * τ : Nat) : K) - ((j + d * τ : Nat) : K)) ^ 2 = ((i : K) - j) ^ 2 := by push_cast; ring
    rw [h0] at h
    have h1 : (1 : K) ≤ d := by exact_mod_cast hd
    have h2 := sq_nonneg ((i : K) - j)
    nlinarith

/-! ### Invariance under changes of the unit and the origin -/

theorem getD_map_lt {α β : Type} (f : α → β) (l : List α) (i : Nat) (a : α) (b : β) (h : i < l.length) : (l.map f).getD i b = f (l.getD i a) := by
  rw [List.getD_eq_getElem _ _ (by simpa using h), List.getElem_map, List.getD_eq_getElem _ _ h]

theorem sum_affine (a b : K) (X : List K) : (X.map fun x => a * x + b).sum = a * X.sum + X.length * b := by
  induction X with
  | nil => simp
  | cons x X ih =>
    simp only [List.map_cons, List.sum_cons, List.length_cons, ih]
    push_cast
    ring

theorem sum_mul (c : K) (X : List K) : (X.map fun x => c * x).sum = c * X.sum := by
  have := sum_affine c 0 X
  simpa using this

theorem variance_affine (a b : K) (X : List K) : variance (X.map fun x => a * x + b) = a ^ 2 * variance X := by
  cases X with
  | nil => simp [variance]
  | cons y Y =>
    have hl : (((y :: Y).length : Nat) : K) ≠ 0 := by
      have : 0 < (y :: Y).length := by simp
      exact_mod_cast (Nat.pos_iff_ne_zero.1 this)
    generalize y :: Y = X at *
    unfold variance
    dsimp only
    rw [List.length_map, sum_affine, List.map_map]
    have : ((fun x => (x - (a * X.sum + (X.length : K) * b) / (X.length : K)) ^ 2) ∘ fun x => a * x + b) = fun x => a ^ 2 * (x - X.sum / (X.length : K)) ^ 2 := by
      funext x
      simp only [Function.comp]
      have : (a * X.sum + (X.length : K) * b) / (X.length : K) = a * (X.sum / (X.length : K)) + b := by
        field_simp
      rw [this]
      ring
    rw [this]
    have h2 := sum_mul (a ^ 2) (X.map fun x => (x - X.sum / (X.length : K)) ^ 2)
    rw [List.map_map] at h2
    have h3 : (List.map (fun x => a ^ 2 * (x - X.sum / (X.length : K)) ^ 2) X).sum = a ^ 2 * (X.map fun x => (x - X.sum / (X.length : K)) ^ 2).sum := h2
    rw [h3, mul_div_assoc]

theorem sqDist_affine (a b : K) (u v : List K) : sqDist (u.map fun x => a * x + b) (v.map fun x => a * x + b) = a ^ 2 * sqDist u v := by
  unfold sqDist
  rw [← sum_mul, List.zip_map, List.map_map, List.map_map]
  congr 1
  apply List.map_congr_left
  intro p _
  simp only [Function.comp, Prod.map]
  ring

theorem second_affine (query : Nat → List K → List Nat) (hs : ScaleFree query) (a b : K) (ha : a ≠ 0) (E : List (List K)) :
    secondNeighbors query (E.map (List.map fun x => a * x + b)) = (secondNeighbors query E).map fun p => (p.1, a ^ 2 * p.2) := by
  have hc : 0 < a ^ 2 := by positivity
  unfold secondNeighbors
  rw [List.map_map, List.map_map]
  apply List.map_congr_left
  intro e _
  simp only [Function.comp]
  have h1 : ((E.map (List.map fun x => a * x + b)).map fun f => sqDist (e.map fun x => a * x + b) f) = (E.map fun f => sqDist e f).map fun x => a ^ 2 * x := by
    rw [List.map_map, List.map_map]
    apply List.map_congr_left
    intro f _
    exact sqDist_affine a b e f
  rw [h1, hs _ hc]
  refine Prod.ext rfl ?_
  dsimp only
  generalize (query 2 (E.map fun f => sqDist e f)).getD 1 0 = j
  by_cases hj : j < (E.map fun f => sqDist e f).length
  · exact getD_map_lt _ _ _ _ _ hj
  · rw [List.getD_eq_default _ _ (by rw [List.length_map]; omega), List.getD_eq_default _ _ (by omega), mul_zero]

theorem criteria_affine (a v x s : K) (ha : a ≠ 0) : criteria (a ^ 2 * v) (a * x) (a ^ 2 * s) = criteria v x s := by
  have hc : 0 < a ^ 2 := by positivity
  unfold criteria
  have h1 : (a ^ 2 * s ≠ 0) ↔ s ≠ 0 := by
    constructor
    · intro h h'; rw [h', mul_zero] at h; exact h rfl
    · intro h; exact mul_ne_zero (ne_of_gt hc) h
  have h2 : (100 * (a ^ 2 * s) < (a * x) ^ 2) ↔ 100 * s < x ^ 2 := by
    have e1 : 100 * (a ^ 2 * s) = a ^ 2 * (100 * s) := by ring
    have e2 : (a * x) ^ 2 = a ^ 2 * x ^ 2 := by ring
    rw [e1, e2]
    exact mul_lt_mul_iff_right₀ hc
  have h3 : (a ^ 2 * s < 4 * (a ^ 2 * v)) ↔ s < 4 * v := by
    have e1 : 4 * (a ^ 2 * v) = a ^ 2 * (4 * v) := by ring
    rw [e1]
    exact mul_lt_mul_iff_right₀ hc
  rw [decide_eq_decide.2 h1, decide_eq_decide.2 h2, decide_eq_decide.2 h3]

/-- C110: the number of false nearest neighbours does not change if the unit or the origin of the series is changed. -/
theorem C110_affine (query : Nat → List K → List Nat) (hq : Correct query) (hs : ScaleFree query) (X : List K) (τ d stride : Nat) (hτ : 1 ≤ τ) (hd : 1 ≤ d) (hst : 1 ≤ stride)
    (a b : K) (ha : a ≠ 0) : falseNeighbors query (X.map fun x => a * x + b) τ d stride = falseNeighbors query X τ d stride := by
  obtain ⟨h1, h2⟩ := fnn_cases query X τ d stride hd hst
  obtain ⟨h1', h2'⟩ := fnn_cases query (X.map fun x => a * x + b) τ d stride hd hst
  rw [List.length_map] at h1' h2'
  by_cases hc : X.length < τ * (d - 1) + 1 + stride
  · rw [h1 hc, h1' hc]
  · obtain ⟨E, hE, e2, e3⟩ := h2 (by omega)
    obtain ⟨E', hE', e2', e3'⟩ := h2' (by omega)
    obtain ⟨_, g2, _⟩ := takens1_length X τ d stride hd hst E hE
    obtain ⟨_, g2', _⟩ := takens1_length _ τ d stride hd hst E' hE'
    rw [List.length_map] at g2'
    have hEE : E' = E.map (List.map fun x => a * x + b) := embedding_unique _ _ _ _ _ _ _ g2' (embedding_map _ _ _ _ _ _ g2 _)
    rw [fnn_eq query hq X τ d stride hτ hd E hE e3 e2, fnn_eq query hq _ τ d stride hτ hd E' hE' (by rw [List.length_map]; exact e3') e2']
    subst hEE
    rw [second_affine query hs a b ha E]
    simp only [List.length_map]
    congr 1
    apply List.countP_congr
    intro i hi
    have hi' : i < E.length - d * τ := by simpa using hi
    have hnl : (secondNeighbors query E).length = E.length := by simp [secondNeighbors]
    have hnb : ∀ i, i < E.length → ((secondNeighbors query E).getD i (0, 0)).1 < X.length := by
      intro i hi
      rw [List.getD_eq_getElem _ _ (by omega)]
      unfold secondNeighbors
      rw [List.getElem_map]
      have := second_spec query hq (E.map fun f => sqDist E[i] f) (by simpa using e2)
      rw [List.length_map] at this
      dsimp only
      omega
    rw [getD_map_lt (fun p : Nat × K => (p.1, a ^ 2 * p.2)) _ i (0, 0) (0, 0) (by omega), getD_map_lt (fun p : Nat × K => (p.1, a ^ 2 * p.2)) _ (i + d * τ) (0, 0) (0, 0) (by omega)]
    dsimp only
    rw [getD_map_lt (fun x => a * x + b) X _ 0 0 (by omega), getD_map_lt (fun x => a * x + b) X _ 0 0 (hnb _ (by omega)), variance_affine]
    have hdiff : ∀ x y : K, a * x + b - (a * y + b) = a * (x - y) := fun x y => by ring
    rw [hdiff, criteria_affine _ _ _ _ ha]

theorem insertionSort_congr {α : Type} (r s : α → α → Prop) [DecidableRel r] [DecidableRel s] (h : ∀ a b, r a b ↔ s a b) (l : List α) :
    l.insertionSort r = l.insertionSort s := by
  have : r = s := by funext a b; exact propext (h a b)
  subst this
  congr

theorem sortQuery_scaleFree : ScaleFree (Gtda.Neighbors.sortQuery (K := K)) := by
  intro c hc m r
  unfold Gtda.Neighbors.sortQuery
  rw [List.length_map, insertionSort_congr _ (fun i j => r.getD i 0 ≤ r.getD j 0)]
  intro i j
  have h : ∀ i, (r.map fun x => c * x).getD i 0 = c * r.getD i 0 := by
    intro i
    by_cases hi : i < r.length
    · exact getD_map_lt _ _ _ _ _ hi
    · rw [List.getD_eq_default _ _ (by rw [List.length_map]; omega), List.getD_eq_default _ _ (by omega), mul_zero]
  rw [h, h]
  exact mul_le_mul_iff_right₀ hc

theorem min_map (f : K → K) (hf : StrictMono f) (u : List K) : (u.map f).min? = u.min?.map f ∧ (u.map f).max? = u.max?.map f := by
  cases u with
  | nil => exact ⟨rfl, rfl⟩
  | cons x u =>
    have h1 : ∀ (u : List K) (x : K), (u.map f).foldl min (f x) = f (u.foldl min x) := by
      intro u
      induction u with
      | nil => intro x; rfl
      | cons y u ih => intro x; rw [List.map_cons, List.foldl_cons, List.foldl_cons, ← hf.monotone.map_min, ih]
    have h2 : ∀ (u : List K) (x : K), (u.map f).foldl max (f x) = f (u.foldl max x) := by
      intro u
      induction u with
      | nil => intro x; rfl
      | cons y u ih => intro x; rw [List.map_cons, List.foldl_cons, List.foldl_cons, ← hf.monotone.map_max, ih]
    exact ⟨by rw [List.map_cons, List.min?_cons', List.min?_cons', h1, Option.map_some], by rw [List.map_cons, List.max?_cons', List.max?_cons', h2, Option.map_some]⟩

theorem binIndex_affine (n : Nat) (a b lo hi x : K) (ha : 0 < a) : binIndex n (a * lo + b) (a * hi + b) (a * x + b) = binIndex n lo hi x := by
  have hmono : ∀ x y, a * x + b ≤ a * y + b ↔ x ≤ y := by
    intro x y
    rw [add_le_add_iff_right]
    exact mul_le_mul_iff_right₀ ha
  have hinj : ∀ x y, a * x + b = a * y + b ↔ x = y := by
    intro x y
    rw [add_left_inj]
    exact ⟨fun h => mul_left_cancel₀ (ne_of_gt ha) h, fun h => by rw [h]⟩
  have hc : ((binEdges n (a * lo + b) (a * hi + b)).countP fun e => decide (e ≤ a * x + b)) = (binEdges n lo hi).countP fun e => decide (e ≤ x) := by
    unfold binEdges
    rw [List.countP_map, List.countP_map]
    apply List.countP_congr
    intro i _
    simp only [Function.comp, decide_eq_true_eq]
    have : a * lo + b + (i : K) * ((a * hi + b - (a * lo + b)) / (n : K)) = a * (lo + (i : K) * ((hi - lo) / (n : K))) + b := by ring
    rw [this]
    exact hmono _ _
  unfold binIndex
  dsimp only
  rw [hc]
  by_cases h : x = hi
  · rw [if_pos h, if_pos ((hinj _ _).2 h)]
  · rw [if_neg h, if_neg (fun h' => h ((hinj _ _).1 h'))]

theorem binsOf_affine (n : Nat) (a b : K) (ha : 0 < a) (u : List K) : binsOf n (u.map fun x => a * x + b) = binsOf n u := by
  have hf : StrictMono fun x : K => a * x + b := by
    intro x y h
    have := mul_lt_mul_of_pos_left h ha
    dsimp only
    linarith
  obtain ⟨m1, m2⟩ := min_map _ hf u
  cases u with
  | nil => rfl
  | cons y u =>
    generalize hU : y :: u = U at *
    obtain ⟨lo, hlo⟩ : ∃ lo, U.min? = some lo := by rw [← hU, List.min?_cons']; exact ⟨_, rfl⟩
    obtain ⟨hi, hhi⟩ : ∃ hi, U.max? = some hi := by rw [← hU, List.max?_cons']; exact ⟨_, rfl⟩
    rw [hlo, Option.map_some] at m1
    rw [hhi, Option.map_some] at m2
    have hr : binRange2d U = if lo = hi then (lo - 1 / 2, hi + 1 / 2) else (lo, hi) := by unfold binRange2d; rw [hlo, hhi]
    have hr' : binRange2d (U.map fun x => a * x + b) = if a * lo + b = a * hi + b then (a * lo + b - 1 / 2, a * hi + b + 1 / 2) else (a * lo + b, a * hi + b) := by
      unfold binRange2d; rw [m1, m2]
    unfold binsOf
    rw [hr, hr', List.map_map]
    by_cases h : lo = hi
    · rw [if_pos h, if_pos (by rw [h])]
      apply List.map_congr_left
      intro x hx
      simp only [Function.comp]
      have hx1 : lo ≤ x := (List.min?_eq_some_iff.1 hlo).2 x hx
      have hx2 : x ≤ hi := (List.max?_eq_some_iff.1 hhi).2 x hx
      have hx3 : x = lo := le_antisymm (by rw [h]; exact hx2) hx1
      subst hx3
      subst h
      have e := binIndex_affine n 1 (a * x + b - x) (x - 1 / 2) (x + 1 / 2) x one_pos
      have e1 : 1 * (x - 1 / 2) + (a * x + b - x) = a * x + b - 1 / 2 := by ring
      have e2 : 1 * (x + 1 / 2) + (a * x + b - x) = a * x + b + 1 / 2 := by ring
      have e3 : 1 * x + (a * x + b - x) = a * x + b := by ring
      rw [e1, e2, e3] at e
      exact e
    · have h' : ¬ (a * lo + b = a * hi + b) := fun hh => h (hf.injective hh)
      rw [if_neg h, if_neg h']
      apply List.map_congr_left
      intro x _
      exact binIndex_affine n a b lo hi x ha

theorem pySlice_map {α β : Type} (f : α → β) (s e : Option Int) (l : List α) (k : Nat) (h : (s = none ∧ e = some (-(k : Int)) ∧ 1 ≤ k) ∨ (s = some (k : Int) ∧ e = none)) :
    pySlice s e 1 (l.map f) = (pySlice s e 1 l).map f := by
  rcases h with ⟨rfl, rfl, h⟩ | ⟨rfl, rfl⟩
  · rw [pySlice_toNeg _ _ h, pySlice_toNeg _ _ h, List.length_map, List.map_take]
  · rw [pySlice_from, pySlice_from, List.map_drop]

end

theorem mapM_error_any {α β : Type} (f : α → PyM β) (e : PyErr) (l : List α) (h : ∀ a ∈ l, (∃ b, f a = .ok b) ∨ f a = .error e) (hx : ∃ a ∈ l, f a = .error e) :
    l.mapM f = .error e := by
  induction l with
  | nil => simp at hx
  | cons a l ih =>
      rw [List.mapM_cons]
      rcases h a (by simp) with ⟨b, hb⟩ | hb
      · rw [hb, ok_bind, ih (fun a ha => h a (by simp [ha]))]
        · rfl
        · obtain ⟨x, hx1, hx2⟩ := hx
          rcases List.mem_cons.1 hx1 with rfl | hx1
          · rw [hb] at hx2; cases hx2
          · exact ⟨x, hx1, hx2⟩
      · rw [hb]; rfl

/-- C110: the mutual information does not change either, if the unit is changed by a positive factor. -/
theorem C110_mutual_information (nBins : Nat) (X : List ℝ) (τ : Nat) (hτ : 1 ≤ τ) (a b : ℝ) (ha : 0 < a) :
    mutualInformation nBins (X.map fun x => a * x + b) τ = mutualInformation nBins X τ := by
  unfold mutualInformation
  dsimp only
  rw [pySlice_map _ none (some (-(τ : Int))) X τ (.inl ⟨rfl, rfl, hτ⟩), pySlice_map _ (some (τ : Int)) none X τ (.inr ⟨rfl, rfl⟩), binsOf_affine _ _ _ ha, binsOf_affine _ _ _ ha]

/-- C110: the parameters chosen are those of the smallest mutual information and, among the dimensions 2 to `max_dimension`, the least variation of the numbers of false nearest neighbours,
the first ones if there are several; the search fails if the series has no two embedded points in the largest dimension `max_dimension + 2` that is tried with the chosen time delay. -/
theorem C110_search (query : Nat → List ℝ → List Nat) (hq : Correct query) (X : List ℝ) (maxT maxD stride : Nat) (hT : 1 ≤ maxT) (hD : 2 ≤ maxD) (hst : 1 ≤ stride) :
    ∃ τ, 1 ≤ τ ∧ τ ≤ maxT ∧ (∀ t, 1 ≤ t → t ≤ maxT → mutualInformation 100 X τ ≤ mutualInformation 100 X t) ∧
      (∀ t, 1 ≤ t → t < τ → mutualInformation 100 X τ < mutualInformation 100 X t) ∧
      (X.length < τ * (maxD + 1) + 1 + stride → optimalParameters query X maxT maxD stride = .error .valueError) ∧
      (τ * (maxD + 1) + 1 + stride ≤ X.length → ∃ (f : Nat → Nat) (d : Nat), (∀ e, 1 ≤ e → e ≤ maxD + 2 → falseNeighbors query X τ e stride = .ok (f e)) ∧
        optimalParameters query X maxT maxD stride = .ok (τ, d) ∧ 2 ≤ d ∧ d ≤ maxD ∧
        (∀ e, 2 ≤ e → e ≤ maxD → |(f d : ℝ) - 2 * f (d + 1) + f (d + 2)| / (f (d + 1) + 1) / d ≤ |(f e : ℝ) - 2 * f (e + 1) + f (e + 2)| / (f (e + 1) + 1) / e) ∧
        (∀ e, 2 ≤ e → e < d → |(f d : ℝ) - 2 * f (d + 1) + f (d + 2)| / (f (d + 1) + 1) / d < |(f e : ℝ) - 2 * f (e + 1) + f (e + 2)| / (f (e + 1) + 1) / e)) := by
  obtain ⟨m, i, hm, hi, hlt, hmin, hfirst⟩ := argmin_first ((List.range maxT).map fun (i : Nat) => mutualInformation 100 X (i + 1)) (by
    intro h; have := congrArg List.length h; simp at this; omega)
  simp only [List.length_map, List.length_range, List.getElem_map, List.getElem_range] at hlt hmin hfirst
  refine ⟨i + 1, by omega, by omega, ?_, ?_, ?_, ?_⟩
  · intro t h1 h2
    have := hmin (t - 1) (by omega)
    rwa [Nat.sub_add_cancel h1] at this
  · intro t h1 h2
    have := hfirst (t - 1) (by omega)
    rwa [Nat.sub_add_cancel h1] at this
  · intro hlen
    unfold optimalParameters
    simp only [hm, hi, ok_bind, ok_map]
    have : ((List.range (maxD + 2)).mapM fun (j : Nat) => falseNeighbors query X (i + 1) (j + 1) stride) = .error .valueError := by
      refine mapM_error_any _ _ _ (fun j _ => ?_) ⟨maxD + 1, by simp, ?_⟩
      · obtain ⟨c1, c2⟩ := C110_short query hq X (i + 1) (j + 1) stride (by omega) (by omega) hst
        by_cases hc : X.length < (i + 1) * (j + 1 - 1) + 1 + stride
        · exact .inr (c1 hc)
        · obtain ⟨c, hc, _⟩ := c2 (by omega)
          exact .inl ⟨c, hc⟩
      · exact (C110_short query hq X (i + 1) (maxD + 1 + 1) stride (by omega) (by omega) hst).1 (by rw [Nat.add_sub_cancel]; exact hlen)
    rw [this]
    rfl
  · intro hlen
    have hall : ∀ e, ∃ c, 1 ≤ e → e ≤ maxD + 2 → falseNeighbors query X (i + 1) e stride = .ok c := by
      intro e
      by_cases he : 1 ≤ e ∧ e ≤ maxD + 2
      · obtain ⟨c, hc, _⟩ := (C110_short query hq X (i + 1) e stride (by omega) he.1 hst).2 (by
          have : (i + 1) * (e - 1) ≤ (i + 1) * (maxD + 1) := Nat.mul_le_mul_left _ (by omega)
          omega)
        exact ⟨c, fun _ _ => hc⟩
      · exact ⟨0, fun h1 h2 => absurd ⟨h1, h2⟩ he⟩
    choose f hf using hall
    have hfl : ((List.range (maxD + 2)).mapM fun (j : Nat) => falseNeighbors query X (i + 1) (j + 1) stride) = .ok ((List.range (maxD + 2)).map fun (j : Nat) => f (j + 1)) := by
      refine mapM_ok fun j hj => ?_
      have := List.mem_range.1 hj
      exact hf (j + 1) (by omega) (by omega)
    have hvar : ((List.range (maxD - 1)).map (· + 2)).mapM (fun (dim : Nat) => do
        let a ← npIndex ((List.range (maxD + 2)).map fun (j : Nat) => f (j + 1)) ((dim : Int) - 1)
        let b ← npIndex ((List.range (maxD + 2)).map fun (j : Nat) => f (j + 1)) dim
        let c ← npIndex ((List.range (maxD + 2)).map fun (j : Nat) => f (j + 1)) ((dim : Int) + 1)
        (Except.ok (|(a : ℝ) - 2 * (b : ℝ) + (c : ℝ)| / ((b : ℝ) + 1) / (dim : ℝ)) : PyM ℝ)) =
        .ok ((List.range (maxD - 1)).map fun (j : Nat) => variationScore (fun e => (f e : ℝ)) (j + 2)) := by
      rw [mapM_ok_iff, List.forall₂_map_left_iff, List.forall₂_map_right_iff, List.forall₂_same]
      intro j hj
      rw [List.mem_range] at hj
      have e1 : npIndex ((List.range (maxD + 2)).map fun (j : Nat) => f (j + 1)) (((j + 2 : Nat) : Int) - 1) = .ok (f (j + 2)) := by
        rw [npIndex_ok_iff]; exact ⟨j + 1, Or.inl (by push_cast; ring), by simp; omega, by simp⟩
      have e2 : npIndex ((List.range (maxD + 2)).map fun (j : Nat) => f (j + 1)) ((j + 2 : Nat) : Int) = .ok (f (j + 3)) := by
        rw [npIndex_ok_iff]; exact ⟨j + 2, Or.inl (by push_cast; ring), by simp; omega, by simp⟩
      have e3 : npIndex ((List.range (maxD + 2)).map fun (j : Nat) => f (j + 1)) (((j + 2 : Nat) : Int) + 1) = .ok (f (j + 4)) := by
        rw [npIndex_ok_iff]; exact ⟨j + 3, Or.inl (by push_cast; ring), by simp; omega, by simp⟩
      rw [e1, e2, e3]
      rfl
    obtain ⟨v, k, hv, hk, hklt, hkmin, hkfirst⟩ := argmin_first ((List.range (maxD - 1)).map fun (j : Nat) => variationScore (fun e => (f e : ℝ)) (j + 2)) (by
      intro h; have := congrArg List.length h; simp at this; omega)
    simp only [List.length_map, List.length_range, List.getElem_map, List.getElem_range] at hklt hkmin hkfirst
    refine ⟨f, k + 2, fun e h1 h2 => hf e h1 h2, ?_, by omega, by omega, ?_, ?_⟩
    · unfold optimalParameters
      simp only [hm, hi, ok_bind, ok_map, hfl, hvar, hv, hk, pure_ok]
    · intro e h1 h2
      have := hkmin (e - 2) (by omega)
      rw [Nat.sub_add_cancel h1] at this
      exact this
    · intro e h1 h2
      have := hkfirst (e - 2) (by omega)
      rw [Nat.sub_add_cancel h1] at this
      exact this

/-- C110: so the chosen parameters do not depend on the unit and the origin of the series. -/
theorem C110_search_affine (query : Nat → List ℝ → List Nat) (hq : Correct query) (hs : ScaleFree query) (X : List ℝ) (maxT maxD stride : Nat) (hst : 1 ≤ stride)
    (a b : ℝ) (ha : 0 < a) : optimalParameters query (X.map fun x => a * x + b) maxT maxD stride = optimalParameters query X maxT maxD stride := by
  unfold optimalParameters
  have h1 : ((List.range maxT).map fun (i : Nat) => mutualInformation 100 (X.map fun x => a * x + b) (i + 1)) = (List.range maxT).map fun (i : Nat) => mutualInformation 100 X (i + 1) := by
    apply List.map_congr_left
    intro i _
    exact C110_mutual_information 100 X (i + 1) (by omega) a b ha
  have h2 : ∀ τ, ((List.range (maxD + 2)).mapM fun (j : Nat) => falseNeighbors query (X.map fun x => a * x + b) (τ + 1) (j + 1) stride) =
      (List.range (maxD + 2)).mapM fun (j : Nat) => falseNeighbors query X (τ + 1) (j + 1) stride := by
    intro τ
    congr 1
    funext j
    exact C110_affine query hq hs X (τ + 1) (j + 1) stride (by omega) (by omega) hst a b (ne_of_gt ha)
  dsimp only
  rw [h1]
  cases hm : pyMin ((List.range maxT).map fun (i : Nat) => mutualInformation 100 X (i + 1)) with
  | error e => rfl
  | ok m =>
    simp only [ok_bind]
    cases hi : pyIndex ((List.range maxT).map fun (i : Nat) => mutualInformation 100 X (i + 1)) m with
    | error e => rfl
    | ok i => simp only [ok_map, ok_bind, h2]

example : Correct (Gtda.Neighbors.sortQuery (K := ℚ)) ∧ ScaleFree (Gtda.Neighbors.sortQuery (K := ℚ)) := ⟨sortQuery_correct, sortQuery_scaleFree⟩

-- a series of 5 values embedded in dimension 2, 4 points of which the first 2 are examined, and one that is too short for dimension 2 with stride 4
example : falseNeighbors Gtda.Neighbors.sortQuery ([0, 1, 0, 5, 0] : List ℚ) 1 1 1 = .ok 0 := by decide +kernel
example : falseNeighbors Gtda.Neighbors.sortQuery ([0, 1, 50, 2, 70, 3] : List ℚ) 1 1 1 = .ok 2 := by decide +kernel
example : falseNeighbors Gtda.Neighbors.sortQuery ([0, 1, 0, 5, 0] : List ℚ) 1 2 4 = .error .valueError := by decide +kernel
-- the hypotheses of C110_refuted_ramp: 100 values, dimension 2, time delay 20; 40 points are counted
example : (20 * (2 - 1) + 2 * 20 ≤ 100) ∧ (100 * ((2 : Nat) : ℚ) < ((20 * (2 - 1) : Nat) - 1 : ℚ) ^ 2) ∧ (((2 : Nat) : ℚ) < 4 * meanSquare (ramp ℚ 100)) := by decide +kernel

end Gtda.Props
