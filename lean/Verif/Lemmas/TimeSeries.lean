import Verif.Model.TimeSeries
import Verif.Spec.TimeSeries

set_option autoImplicit false

namespace Gtda.TimeSeries
open Gtda.Py

theorem mapM_ok_iff {α β : Type _} {f : α → PyM β} {l : List α} {ys : List β} :
    l.mapM f = .ok ys ↔ List.Forall₂ (fun x y => f x = .ok y) l ys := by
  induction l generalizing ys with
  | nil =>
    constructor
    · intro h; simp only [List.mapM_nil] at h; cases h; exact .nil
    · intro h; cases h; rfl
  | cons a t ih =>
    rw [List.mapM_cons]
    constructor
    · intro h
      cases ha : f a with
      | error e => rw [ha] at h; cases h
      | ok b =>
        rw [ha] at h
        cases ht : t.mapM f with
        | error e => rw [ht] at h; cases h
        | ok bs => rw [ht] at h; cases h; exact .cons ha (ih.1 ht)
    · intro h
      cases h with
      | cons h1 h2 => rw [h1, ih.2 h2]; rfl

theorem fancy_nat {α : Type _} (X : List α) (idx : List Nat) (h : ∀ i ∈ idx, i < X.length) :
    ∃ r, fancy X (idx.map (fun (i : Nat) => (i : Int))) = .ok r ∧ r.length = idx.length ∧
      ∀ k (hk : k < idx.length), r[k]? = X[idx[k]]? := by
  induction idx with
  | nil => exact ⟨[], rfl, rfl, fun k hk => by simp at hk⟩
  | cons a t ih =>
    obtain ⟨r, hr, hlen, hget⟩ := ih (fun i hi => h i (by simp [hi]))
    have ha := h a (by simp)
    refine ⟨X[a] :: r, ?_, by simp [hlen], ?_⟩
    · unfold fancy at hr ⊢
      rw [List.map_cons, List.mapM_cons, npIndex_nat X a ha, hr]; rfl
    · intro k hk
      cases k with
      | zero => simp [ha]
      | succ k =>
        have := hget k (by simpa using hk)
        simpa using this

theorem fancy_block {α : Type _} (X : List α) (a size : Nat) (h : a + size ≤ X.length) :
    fancy X ((List.range size).map fun (j : Nat) => ((a + j : Nat) : Int)) = .ok ((X.drop a).take size) := by
  obtain ⟨r, hr, hlen, hget⟩ := fancy_nat X ((List.range size).map fun j => a + j) (by
    intro i hi; simp only [List.mem_map, List.mem_range] at hi; omega)
  rw [List.map_map] at hr
  have : r = (X.drop a).take size := by
    apply List.ext_getElem?
    intro k
    simp only [List.length_map, List.length_range] at hlen hget
    by_cases hk : k < size
    · rw [hget k hk]
      simp [hk]
    · rw [List.getElem?_eq_none (by omega), List.getElem?_eq_none (by simp; omega)]
  rw [← this]
  exact hr

/-- Closed form of the window indices. -/
theorem windowIndices_ok (n size stride : Nat) (h : size ≤ n) :
    windowIndices n size stride = .ok ((List.range ((n - size) / stride + 1)).map fun (i : Nat) =>
      (List.range size).map fun (j : Nat) => ((((n - size) % stride + i * stride) + j : Nat) : Int)) := by
  have hc : (n : Int) - size = ((n - size : Nat) : Int) := by omega
  unfold windowIndices
  simp only [hc]
  rw [← Int.natCast_ediv, ← Int.natCast_emod]
  have h0 : ¬ (((n - size) / stride : Nat) : Int) + 1 ≤ 0 := by
    have := Int.natCast_nonneg ((n - size) / stride); omega
  rw [if_neg h0]
  congr 1
  have : ((((n - size) / stride : Nat) : Int) + 1).toNat = (n - size) / stride + 1 := by omega
  rw [this]
  apply List.map_congr_left; intro i _
  apply List.map_congr_left; intro j _
  push_cast; ring

theorem windowIndices_err (n size stride : Nat) (ht : 1 ≤ stride) (h : n < size) :
    windowIndices n size stride = .error .valueError := by
  unfold windowIndices
  have : ((n : Int) - size) / stride + 1 ≤ 0 := by
    have : ((n : Int) - size) / stride < 0 := Int.ediv_neg_of_neg_of_pos (by omega) (by omega)
    omega
  simp [this]

theorem window_end_le (n size stride i : Nat) (h : size ≤ n) (hi : i < (n - size) / stride + 1) :
    (n - size) % stride + i * stride + size ≤ n := by
  have h1 := Nat.div_add_mod (n - size) stride
  have h2 : i * stride ≤ (n - size) / stride * stride := Nat.mul_le_mul_right _ (by omega)
  have h3 : stride * ((n - size) / stride) = (n - size) / stride * stride := Nat.mul_comm _ _
  omega

theorem slidingTransform_ok {α : Type _} (X : List α) (size stride : Nat) (h : size ≤ X.length) :
    slidingTransform size stride X = .ok ((List.range ((X.length - size) / stride + 1)).map fun (i : Nat) =>
      (X.drop ((X.length - size) % stride + i * stride)).take size) := by
  unfold slidingTransform
  rw [windowIndices_ok _ _ _ h]
  show List.mapM (fancy X) _ = _
  rw [mapM_ok_iff, List.forall₂_map_left_iff, List.forall₂_map_right_iff, List.forall₂_same]
  intro i hi
  rw [List.mem_range] at hi
  exact fancy_block X _ size (window_end_le _ _ _ _ h hi)

theorem sliceLen_back (n b stride : Nat) (ht : 1 ≤ stride) (hb : b < n) :
    sliceLen ((n : Int) - 1) ((b : Int) - 1) (-(stride : Int)) = (n - 1 - b) / stride + 1 := by
  unfold sliceLen
  rw [if_pos (by omega), if_pos (by omega), neg_neg]
  have : ((n : Int) - 1 - (b - 1) - 1) = ((n - 1 - b : Nat) : Int) := by omega
  rw [this, ← Int.natCast_ediv]
  generalize (n - 1 - b) / stride = q
  omega

/-- `y[:b-1:-stride][::-1]` for `1 ≤ b < n` picks the positions `n - 1 - k * stride ≥ b`, in increasing order. -/
theorem backSlice {α : Type _} (y : List α) (b stride : Nat) (ht : 1 ≤ stride) (hb1 : 1 ≤ b) (hb : b < y.length) :
    let r := pySlice none none (-1) (pySlice none (some ((b : Int) - 1)) (-(stride : Int)) y)
    r.length = (y.length - 1 - b) / stride + 1 ∧
      ∀ i, i < (y.length - 1 - b) / stride + 1 → r[i]? = y[(y.length - 1 - b) % stride + i * stride + b]? := by
  have hst : sliceStart (y.length : Int) (-(stride : Int)) none = (y.length : Int) - 1 := by
    simp only [sliceStart]; rw [if_pos (by omega)]
  have hsp : sliceStop (y.length : Int) (-(stride : Int)) (some ((b : Int) - 1)) = (b : Int) - 1 := by
    simp only [sliceStop, adjustBound]
    rw [if_neg (by omega), if_neg (by omega), if_neg (by omega)]
  have hlen := length_pySlice none (some ((b : Int) - 1)) (-(stride : Int)) (by omega) y
  rw [hst, hsp, sliceLen_back _ _ _ ht hb] at hlen
  simp only
  rw [pySlice_rev]
  refine ⟨by simpa using hlen, ?_⟩
  intro i hi
  rw [List.getElem?_reverse (by omega), hlen, getElem?_pySlice _ _ _ (by omega)]
  · rw [hst]
    congr 1
    have h1 := Nat.div_add_mod (y.length - 1 - b) stride
    set q := (y.length - 1 - b) / stride
    set r := (y.length - 1 - b) % stride
    have h2 : ((q + 1 - 1 - i : Nat) : Int) = (q : Int) - i := by omega
    rw [h2]
    have h3 : ((y.length : Int) - 1 + ((q : Int) - i) * -(stride : Int)) = ((r + i * stride + b : Nat) : Int) := by
      have : ((stride * q + r : Nat) : Int) = (y.length : Int) - 1 - b := by omega
      push_cast at this ⊢
      linarith [this]
    rw [h3]; rfl
  · rw [hst, hsp, sliceLen_back _ _ _ ht hb]; omega

/-- `y[:-1:-stride][::-1]` is empty. -/
theorem backSlice_neg_one {α : Type _} (y : List α) (stride : Nat) (ht : 1 ≤ stride) :
    pySlice none none (-1) (pySlice none (some (-1)) (-(stride : Int)) y) = [] := by
  have hlen := length_pySlice none (some (-1)) (-(stride : Int)) (by omega) y
  have hst : sliceStart (y.length : Int) (-(stride : Int)) none = (y.length : Int) - 1 := by
    simp only [sliceStart]; rw [if_pos (by omega)]
  have hsp : sliceStop (y.length : Int) (-(stride : Int)) (some (-1)) = (y.length : Int) - 1 := by
    simp only [sliceStop, adjustBound]
    split <;> split <;> (try split) <;> (try split) <;> omega
  rw [hst, hsp] at hlen
  rw [pySlice_rev]
  have : sliceLen ((y.length : Int) - 1) ((y.length : Int) - 1) (-(stride : Int)) = 0 := by
    unfold sliceLen; split <;> split <;> omega
  rw [this] at hlen
  simpa using hlen

theorem takensIndices_ok (n τ d stride : Nat) (b : Bool) (hd : 1 ≤ d) (h : τ * (d - 1) < n) :
    takensIndices n τ d stride b = .ok ((List.range ((n - τ * (d - 1) - 1) / stride + 1)).map fun (i : Nat) =>
      ((List.range d).map fun (k : Nat) =>
        ((if b then (n - τ * (d - 1) - 1) % stride else 0) + i * stride + k * τ)).map (fun (j : Nat) => (j : Int))) := by
  have hd' : ((d : Int) - 1) = ((d - 1 : Nat) : Int) := by omega
  have hc : (n : Int) - τ * ((d : Int) - 1) - 1 = ((n - τ * (d - 1) - 1 : Nat) : Int) := by
    rw [hd', ← Int.natCast_mul]; omega
  unfold takensIndices
  simp only [hc]
  rw [← Int.natCast_ediv, ← Int.natCast_emod]
  have h0 : ¬ (((n - τ * (d - 1) - 1) / stride : Nat) : Int) + 1 ≤ 0 := by
    have := Int.natCast_nonneg ((n - τ * (d - 1) - 1) / stride); omega
  rw [if_neg h0]
  congr 1
  have : ((((n - τ * (d - 1) - 1) / stride : Nat) : Int) + 1).toNat = (n - τ * (d - 1) - 1) / stride + 1 := by omega
  rw [this]
  apply List.map_congr_left; intro i _
  rw [List.map_map]
  apply List.map_congr_left; intro j _
  simp only [Function.comp]
  cases b <;> push_cast <;> ring

theorem takensIndices_err (n τ d stride : Nat) (b : Bool) (ht : 1 ≤ stride) (hd : 1 ≤ d) (h : n ≤ τ * (d - 1)) :
    takensIndices n τ d stride b = .error .valueError := by
  have hd' : ((d : Int) - 1) = ((d - 1 : Nat) : Int) := by omega
  unfold takensIndices
  have : ((n : Int) - τ * ((d : Int) - 1) - 1) / stride + 1 ≤ 0 := by
    have : ((n : Int) - τ * ((d : Int) - 1) - 1) / stride < 0 := by
      apply Int.ediv_neg_of_neg_of_pos _ (by omega)
      rw [hd', ← Int.natCast_mul]; omega
    omega
  simp only [this, if_true]

theorem takens_index_lt (n τ d stride i k : Nat) (b : Bool) (h : τ * (d - 1) < n)
    (hi : i < (n - τ * (d - 1) - 1) / stride + 1) (hk : k < d) :
    (if b then (n - τ * (d - 1) - 1) % stride else 0) + i * stride + k * τ < n := by
  have h1 := Nat.div_add_mod (n - τ * (d - 1) - 1) stride
  have h2 : i * stride ≤ (n - τ * (d - 1) - 1) / stride * stride := Nat.mul_le_mul_right _ (by omega)
  have h3 : stride * ((n - τ * (d - 1) - 1) / stride) = (n - τ * (d - 1) - 1) / stride * stride := Nat.mul_comm _ _
  have h4 : k * τ ≤ τ * (d - 1) := by
    rw [Nat.mul_comm]; exact Nat.mul_le_mul_left _ (by omega)
  cases b <;> simp only [if_true, if_false, Bool.false_eq_true] <;> omega

theorem takens1_ok {α : Type _} (X : List α) (τ d stride : Nat) (b : Bool) (hd : 1 ≤ d)
    (h : τ * (d - 1) < X.length) :
    ∃ E, takens1 τ d stride b X = .ok E ∧
      Spec.IsDelayEmbedding τ d stride (if b then (X.length - τ * (d - 1) - 1) % stride else 0) X E := by
  have hrow : ∀ i, i < (X.length - τ * (d - 1) - 1) / stride + 1 → _ := fun i hi =>
    fancy_nat X ((List.range d).map fun (k : Nat) =>
        ((if b then (X.length - τ * (d - 1) - 1) % stride else 0) + i * stride + k * τ)) (by
      intro j hj
      simp only [List.mem_map, List.mem_range] at hj
      obtain ⟨k, hk, rfl⟩ := hj
      exact takens_index_lt _ _ _ _ _ _ b h hi hk)
  have hex : ∃ E : List (List α), List.Forall₂ (fun (i : Nat) (r : List α) =>
      fancy X (((List.range d).map fun (k : Nat) =>
        ((if b then (X.length - τ * (d - 1) - 1) % stride else 0) + i * stride + k * τ)).map (fun (j : Nat) => (j : Int))) = .ok r)
      (List.range ((X.length - τ * (d - 1) - 1) / stride + 1)) E := by
    generalize hm : (X.length - τ * (d - 1) - 1) / stride + 1 = m at hrow
    clear hm
    induction m with
    | zero => exact ⟨[], .nil⟩
    | succ m ih =>
      obtain ⟨E, hE⟩ := ih (fun i hi => hrow i (by omega))
      obtain ⟨r, hr, -⟩ := hrow m (by omega)
      exact ⟨E ++ [r], by rw [List.range_succ]; exact List.rel_append hE (.cons hr .nil)⟩
  obtain ⟨E, hE⟩ := hex
  refine ⟨E, ?_, ?_⟩
  · unfold takens1
    rw [takensIndices_ok _ _ _ _ b hd h]
    show List.mapM (fancy X) _ = _
    rw [mapM_ok_iff, List.forall₂_map_left_iff]
    exact hE
  · have hlen := hE.length_eq
    rw [List.length_range] at hlen
    have hget : ∀ i (hi : i < E.length), _ := fun i hi =>
      (List.forall₂_iff_get.1 hE).2 i (by rw [List.length_range]; omega) hi
    simp only [List.get_eq_getElem, List.getElem_range] at hget
    refine ⟨hlen.symm, ?_, ?_⟩
    · intro i hi
      obtain ⟨r, hr, hl, -⟩ := hrow i (by omega)
      rw [hget i hi] at hr
      cases hr
      simpa using hl
    · intro i hi k hk
      refine ⟨takens_index_lt _ _ _ _ _ _ b h (by omega) hk, ?_⟩
      obtain ⟨r, hr, hl, hg⟩ := hrow i (by omega)
      rw [hget i hi] at hr
      cases hr
      have := hg k (by simpa using hk)
      simpa using this

end Gtda.TimeSeries
