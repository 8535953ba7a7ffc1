import Verif.Model.Raster
import Verif.Lemmas.Vectorization
import Mathlib.Algebra.BigOperators.Ring.List

set_option autoImplicit false
set_option linter.unusedSectionVars false

/-! Lemmas about rasterisation. -/

namespace Gtda.Diagrams
open Gtda.Py Gtda.Parallel

theorem range_map_set {α : Type} (n j : Nat) (f : Nat → α) (v : α) :
    ((List.range n).map f).set j v = (List.range n).map fun k => if k = j then v else f k := by
  apply List.ext_getElem?
  intro k
  rw [List.getElem?_set, List.getElem?_map, List.getElem?_map]
  by_cases hk : k < n
  · rw [List.getElem?_range hk]
    by_cases h : j = k
    · simp [h, hk]
    · simp [h, Ne.symm h]
  · rw [List.getElem?_eq_none (by simpa using hk)]
    by_cases h : j = k
    · simp [h, hk]
    · simp [h]

theorem set2_image2 {α : Type} (n i j : Nat) (f : Nat → Nat → α) (v : α) :
    set2 (image2 n f) i j v = image2 n fun a b => if (a, b) = (i, j) then v else f a b := by
  unfold set2 image2
  apply List.ext_getElem?
  intro k
  rw [List.getElem?_modify, List.getElem?_map, List.getElem?_map]
  by_cases hk : k < n
  · rw [List.getElem?_range hk]
    by_cases h : i = k
    · subst h
      simp [range_map_set]
    · simp [h, Ne.symm h]
  · rw [List.getElem?_eq_none (by simpa using hk)]
    simp

theorem image2_get {α : Type} (n : Nat) (f : Nat → Nat → α) (i j : Nat) (hi : i < n) (hj : j < n) :
    ((image2 n f)[i]? >>= fun r => r[j]?) = some (f i j) := by
  simp [image2, List.getElem?_range hi, List.getElem?_range hj]

theorem resolveIdx_ok (n : Nat) (i : Int) (h0 : 0 ≤ i) (h1 : i < n) : resolveIdx n i = .ok i.toNat := by
  unfold resolveIdx
  simp only
  rw [if_neg (by omega), if_neg (by omega)]

theorem foldlM_setPixel {K : Type} [NatCast K] (n : Nat) (l : List ((Int × Int) × Nat)) (hl : ∀ c ∈ l, 0 ≤ c.1.1 ∧ c.1.1 < n ∧ 0 ≤ c.1.2 ∧ c.1.2 < n)
    (f : Nat → Nat → K) :
    ∃ g, l.foldlM (fun im cv => setPixel n im cv.1 (cv.2 : K)) (image2 n f) = .ok (image2 n g) ∧
      (∀ a b : Nat, ((a : Int), (b : Int)) ∉ l.map Prod.fst → g a b = f a b) ∧
      ((l.map Prod.fst).Nodup → ∀ (a b : Nat) c, (((a : Int), (b : Int)), c) ∈ l → g a b = (c : K)) := by
  induction l generalizing f with
  | nil => exact ⟨f, rfl, fun _ _ _ => rfl, by simp⟩
  | cons c t ih =>
    obtain ⟨h1, h2, h3, h4⟩ := hl c List.mem_cons_self
    obtain ⟨g, hg, hg1, hg2⟩ := ih (fun c hc => hl c (List.mem_cons_of_mem _ hc)) (fun a b => if (a, b) = (c.1.1.toNat, c.1.2.toNat) then (c.2 : K) else f a b)
    refine ⟨g, ?_, ?_, ?_⟩
    · rw [List.foldlM_cons]
      unfold setPixel at hg ⊢
      rw [resolveIdx_ok n _ h1 h2]
      simp only [ok_bind]
      rw [resolveIdx_ok n _ h3 h4]
      simp only [ok_bind]
      rw [set2_image2]
      exact hg
    · intro a b hab
      rw [List.map_cons, List.mem_cons, not_or] at hab
      rw [hg1 a b hab.2, if_neg]
      intro e
      apply hab.1
      rw [Prod.mk.injEq] at e
      rw [Prod.ext_iff]
      constructor
      · show (a : Int) = c.1.1; omega
      · show (b : Int) = c.1.2; omega
    · intro hnd a b v hv
      rw [List.map_cons, List.nodup_cons] at hnd
      rcases List.mem_cons.mp hv with rfl | hv
      · rw [hg1 a b hnd.1]
        simp
      · exact hg2 hnd.2 a b v hv

theorem sampleImage_eq {K : Type} [Semiring K] (n : Nat) (coords : List (Int × Int)) (h : ∀ c ∈ coords, 0 ≤ c.1 ∧ c.1 < n ∧ 0 ≤ c.2 ∧ c.2 < n) :
    sampleImage n (image2 n fun _ _ => (0 : K)) coords = .ok (image2 n fun (i j : Nat) => (coords.count ((i : Int), (j : Int)) : K)) := by
  obtain ⟨g, hg, hg1, hg2⟩ := foldlM_setPixel (K := K) n (coords.dedup.map fun c => (c, coords.count c)) (by
    intro c hc
    rw [List.mem_map] at hc
    obtain ⟨c, hc, rfl⟩ := hc
    exact h c (List.mem_dedup.mp hc)) (fun _ _ => 0)
  unfold sampleImage
  rw [hg]
  have hmap : (coords.dedup.map fun c => (c, coords.count c)).map Prod.fst = coords.dedup := by
    rw [List.map_map]
    exact List.map_id _
  congr 2
  funext a b
  by_cases hc : ((a : Int), (b : Int)) ∈ coords
  · refine hg2 (by rw [hmap]; exact List.nodup_dedup _) a b _ ?_
    rw [List.mem_map]
    exact ⟨_, List.mem_dedup.mpr hc, rfl⟩
  · rw [hg1 a b (by rw [hmap, List.mem_dedup]; exact hc), List.count_eq_zero.mpr hc, Nat.cast_zero]

/-- Sum of all pixels. -/
theorem sum_image2_count {K : Type} [Semiring K] (n : Nat) (coords : List (Int × Int)) (h : ∀ c ∈ coords, 0 ≤ c.1 ∧ c.1 < n ∧ 0 ≤ c.2 ∧ c.2 < n) :
    ((image2 n fun (i j : Nat) => (coords.count ((i : Int), (j : Int)) : K)).map List.sum).sum = (coords.length : K) := by
  unfold image2
  rw [List.map_map]
  have one : ∀ (k : Int) (n : Nat), 0 ≤ k → k < n → (((List.range n).map fun (i : Nat) => if (i : Int) = k then 1 else 0).sum : Nat) = 1 := by
    intro k n h0 h1
    induction n with
    | zero => omega
    | succ n ih =>
      rw [List.range_succ, List.map_append, List.sum_append]
      by_cases hk : k < n
      · rw [ih hk]
        simp only [List.map_cons, List.map_nil, List.sum_cons, List.sum_nil]
        rw [if_neg (by omega)]
        rfl
      · have : ((List.range n).map fun (i : Nat) => if (i : Int) = k then 1 else 0) = (List.range n).map fun _ => 0 := by
          apply List.map_congr_left
          intro i hi
          rw [List.mem_range] at hi
          rw [if_neg (by omega)]
        rw [this]
        have z : ((List.range n).map fun _ : Nat => (0 : Nat)).sum = 0 := by simp
        rw [z]
        simp only [List.map_cons, List.map_nil, List.sum_cons, List.sum_nil]
        rw [if_pos (by omega)]
        rfl
  have zero : ∀ (m : Nat), ((List.range m).map fun _ : Nat => (0 : Nat)).sum = 0 := by intro m; simp
  have nat : ((List.range n).map fun (i : Nat) => ((List.range n).map fun (j : Nat) => coords.count ((i : Int), (j : Int))).sum).sum = coords.length := by
    clear * - h one zero
    induction coords with
    | nil => simp
    | cons c t ih =>
      have add : ∀ (m : Nat) (f g : Nat → Nat), ((List.range m).map fun i => f i + g i).sum = ((List.range m).map f).sum + ((List.range m).map g).sum := by
        intro m f g
        exact List.sum_map_add
      have e : ∀ i j : Nat, (c :: t).count ((i : Int), (j : Int)) = t.count ((i : Int), (j : Int)) + (if (i : Int) = c.1 then 1 else 0) * (if (j : Int) = c.2 then 1 else 0) := by
        intro i j
        rw [List.count_cons]
        congr 1
        obtain ⟨x, y⟩ := c
        by_cases h1 : (i : Int) = x
        · by_cases h2 : (j : Int) = y
          · subst h1 h2; simp
          · have : ((x, y) == ((i : Int), (j : Int))) = false := by
              simp only [beq_eq_false_iff_ne, ne_eq, Prod.mk.injEq, not_and]
              exact fun _ e => h2 e.symm
            simp [this, h2]
        · have : ((x, y) == ((i : Int), (j : Int))) = false := by
            simp only [beq_eq_false_iff_ne, ne_eq, Prod.mk.injEq, not_and]
            exact fun e => absurd e.symm h1
          simp [this, h1]
      simp only [e, add]
      rw [ih (fun c hc => h c (List.mem_cons_of_mem _ hc)), List.length_cons]
      congr 1
      obtain ⟨h1, h2, h3, h4⟩ := h c List.mem_cons_self
      have : (fun (i : Nat) => ((List.range n).map fun (j : Nat) => (if (i : Int) = c.1 then 1 else 0) * (if (j : Int) = c.2 then 1 else 0)).sum) =
          fun (i : Nat) => if (i : Int) = c.1 then 1 else 0 := by
        funext i
        rw [List.sum_map_mul_left, one c.2 n h3 h4, Nat.mul_one]
      rw [this]
      exact one c.1 n h1 h2
  have cast : ∀ l : List Nat, ((l.sum : Nat) : K) = (l.map fun (k : Nat) => (k : K)).sum := by
    intro l
    induction l with
    | nil => simp
    | cons a t ih => rw [List.sum_cons, Nat.cast_add, ih, List.map_cons, List.sum_cons]
  have := congrArg (Nat.cast (R := K)) nat
  rw [← this, cast, List.map_map]
  congr 1
  apply List.map_congr_left
  intro i _
  simp only [Function.comp, cast, List.map_map]
  rfl

theorem transposeN_image2 {α : Type} (n : Nat) (f : Nat → Nat → α) : transposeN n (image2 n f) = image2 n fun i j => f j i := by
  have := transposeN_map f (List.range n) (List.range n)
  rw [List.length_range] at this
  exact this

theorem rot90_image2 {α : Type} (n : Nat) (f : Nat → Nat → α) : rot90 n (image2 n f) = image2 n fun i j => f j (n - 1 - i) := by
  have h : (image2 n f).map List.reverse = image2 n fun i j => f i (n - 1 - j) := by
    unfold image2
    rw [List.map_map]
    apply List.map_congr_left
    intro i _
    apply List.ext_getElem?
    intro j
    simp only [Function.comp]
    by_cases hj : j < n
    · rw [List.getElem?_reverse (by simpa using hj), List.getElem?_map, List.getElem?_map, List.getElem?_range hj, List.length_map, List.length_range,
        List.getElem?_range (by omega)]
      rfl
    · rw [List.getElem?_eq_none (by simpa using hj), List.getElem?_eq_none (by simpa using hj)]
  unfold rot90
  rw [h, transposeN_image2]

theorem zipWith_image2 {α β γ : Type} (n : Nat) (o : α → β → γ) (f : Nat → Nat → α) (g : Nat → Nat → β) :
    List.zipWith (List.zipWith o) (image2 n f) (image2 n g) = image2 n fun i j => o (f i j) (g i j) := by
  unfold image2
  rw [List.zipWith_map, List.zipWith_self]
  apply List.map_congr_left
  intro i _
  rw [List.zipWith_map, List.zipWith_self]

theorem map_image2 {α β : Type} (n : Nat) (o : α → β) (f : Nat → Nat → α) :
    (image2 n f).map (fun r => r.map o) = image2 n fun i j => o (f i j) := by
  unfold image2
  rw [List.map_map]
  apply List.map_congr_left
  intro i _
  rw [Function.comp, List.map_map]
  rfl

section
variable {K Q : Type} [Field K] [LinearOrder K] [IsStrictOrderedRing K] [FloorRing K]

theorem clipTo_eq (first last x : K) (h : first ≤ last) : clipTo first last x = max first (min last x) := by
  unfold clipTo
  dsimp only
  by_cases h1 : x < first
  · rw [if_pos h1, if_neg (by simpa using h), min_eq_right (le_trans (le_of_lt h1) h), max_eq_left (le_of_lt h1)]
  · push Not at h1
    have e : (if x < first then first else x) = x := if_neg (by simpa using h1)
    rw [e]
    by_cases h2 : x > last
    · rw [if_pos h2, min_eq_left (le_of_lt h2), max_eq_right h]
    · push Not at h2
      rw [if_neg (by simpa using h2), min_eq_right h2, max_eq_right h1]

theorem clipTo_mem (first last x : K) (h : first ≤ last) : first ≤ clipTo first last x ∧ clipTo first last x ≤ last := by
  rw [clipTo_eq _ _ _ h]
  exact ⟨le_max_left _ _, max_le h (min_le_left _ _)⟩

theorem equallySpaced_get (l : List K) (n : Nat) (lo hi step : K) (h : EquallySpaced l n lo hi step) (i : Nat) (hi : i < n) :
    l[i]? = some (lo + (i : K) * step) := by
  obtain ⟨h1, h2, -, h4⟩ := h
  induction i with
  | zero => rw [h2]; simp
  | succ i ih =>
    have hi' := ih (by omega)
    have hlt : i + 1 < l.length := by omega
    have := h4 i _ _ hi' (List.getElem?_eq_getElem hlt)
    rw [List.getElem?_eq_getElem hlt, Option.some.injEq]
    push_cast
    linarith

theorem equallySpaced_last (l : List K) (n : Nat) (lo hi step : K) (hn : 1 ≤ n) (h : EquallySpaced l n lo hi step) :
    hi = lo + ((n - 1 : Nat) : K) * step := by
  have h1 := equallySpaced_get l n lo hi step h (n - 1) (by omega)
  rw [h.2.2.1, Option.some.injEq] at h1
  exact h1

theorem equallySpaced_head (l : List K) (n : Nat) (lo hi step : K) (h : EquallySpaced l n lo hi step) : l.headD 0 = lo := by
  rw [List.headD_eq_head?_getD, List.head?_eq_getElem?, h.2.1]
  rfl

theorem equallySpaced_getLast (l : List K) (n : Nat) (lo hi step : K) (h : EquallySpaced l n lo hi step) : l.getLastD 0 = hi := by
  rw [List.getLastD_eq_getLast?, List.getLast?_eq_getElem?, h.1, h.2.2.1]
  rfl

/-- The pixel of a value in the sampled range, in bounds. -/
theorem pixel_spec (first step x : K) (n : Nat) (hn : 1 ≤ n) (hs : 0 < step) (h1 : first ≤ x) (h2 : x ≤ first + ((n - 1 : Nat) : K) * step) :
    0 ≤ pixel first step x ∧ pixel first step x < n := by
  unfold pixel
  dsimp only
  have h0 : 0 ≤ (x - first) / step := div_nonneg (by linarith) (le_of_lt hs)
  rw [if_pos h0]
  refine ⟨Int.floor_nonneg.mpr h0, ?_⟩
  rw [Int.floor_lt]
  have : (x - first) / step ≤ ((n - 1 : Nat) : K) := by
    rw [div_le_iff₀ hs]; linarith
  have h3 : ((n - 1 : Nat) : K) < (n : K) := by
    rw [Nat.cast_lt]; omega
  have : (x - first) / step < (n : K) := lt_of_le_of_lt this h3
  simpa using this

theorem pixel_eq_iff (first step x : K) (hs : 0 < step) (h1 : first ≤ x) (i : Nat) :
    pixel first step x = (i : Int) ↔ first + (i : K) * step ≤ x ∧ x < first + ((i : K) + 1) * step := by
  unfold pixel
  dsimp only
  have h0 : 0 ≤ (x - first) / step := div_nonneg (by linarith) (le_of_lt hs)
  rw [if_pos h0, Int.floor_eq_iff, le_div_iff₀ hs, div_lt_iff₀ hs]
  push_cast
  constructor <;> rintro ⟨h1, h2⟩ <;> constructor <;> linarith

end

end Gtda.Diagrams
