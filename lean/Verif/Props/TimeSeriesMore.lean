import Verif.Lemmas.TimeSeries
import Verif.Lemmas.List
import Mathlib.Analysis.SpecialFunctions.Log.Basic
import Mathlib.Data.Rat.Floor

set_option autoImplicit false

/-!
# C07–C11: parameter search, labeller, resampler, stationarizer
-/

namespace Gtda.Props
open Gtda.Py Gtda.TimeSeries Gtda.Spec

/-! ### C07 -/

theorem pyMin_foldl {K : Type _} [LinearOrder K] (t : List K) (a : K) :
    let m := t.foldl (fun m x => if x < m then x else m) a
    (m = a ∨ m ∈ t) ∧ m ≤ a ∧ ∀ x ∈ t, m ≤ x := by
  induction t generalizing a with
  | nil => simp
  | cons b t ih =>
    simp only [List.foldl_cons]
    obtain ⟨h1, h2, h3⟩ := ih (if b < a then b else a)
    refine ⟨?_, ?_, ?_⟩
    · rcases h1 with h1 | h1
      · rw [h1]; split
        · right; simp
        · left; rfl
      · right; exact List.mem_cons_of_mem _ h1
    · refine h2.trans ?_
      split
      · exact le_of_lt ‹_›
      · exact le_refl _
    · intro x hx
      rcases List.mem_cons.1 hx with rfl | hx
      · refine h2.trans ?_
        split
        · exact le_refl _
        · exact not_lt.1 ‹_›
      · exact h3 x hx

/-- `l.index(min(l))` is the first position of a minimal element. -/
theorem argmin_first {K : Type _} [LinearOrder K] (l : List K) (hl : l ≠ []) :
    ∃ m i, pyMin l = .ok m ∧ pyIndex l m = .ok i ∧ ∃ h : i < l.length,
      (∀ j, (hj : j < l.length) → l[i] ≤ l[j]) ∧ ∀ j, (hj : j < i) → l[i] < l[j] := by
  cases l with
  | nil => exact absurd rfl hl
  | cons a t =>
    obtain ⟨h1, h2, h3⟩ := pyMin_foldl t a
    set m := t.foldl (fun m x => if x < m then x else m) a with hm
    have hmem : m ∈ a :: t := by
      rcases h1 with h1 | h1
      · rw [h1]; simp
      · exact List.mem_cons_of_mem _ h1
    have hle : ∀ x ∈ a :: t, m ≤ x := by
      intro x hx
      rcases List.mem_cons.1 hx with rfl | hx
      · exact h2
      · exact h3 x hx
    have hfind : ∃ i, (a :: t).findIdx? (fun x => decide (x = m)) = some i := by
      have : ((a :: t).findIdx? (fun x => decide (x = m))).isSome := by
        rw [List.findIdx?_isSome, List.any_eq_true]
        exact ⟨m, hmem, by simp⟩
      exact Option.isSome_iff_exists.1 this
    obtain ⟨i, hi⟩ := hfind
    refine ⟨m, i, rfl, by simp only [pyIndex]; rw [hi], ?_⟩
    rw [List.findIdx?_eq_some_iff_getElem] at hi
    obtain ⟨h, heq, hne⟩ := hi
    have heq' : (a :: t)[i] = m := by simpa using heq
    refine ⟨h, ?_, ?_⟩
    · intro j hj; rw [heq']; exact hle _ (List.getElem_mem hj)
    · intro j hj
      have h4 := hne j hj
      rw [heq']
      refine lt_of_le_of_ne (hle _ (List.getElem_mem _)) ?_
      intro h5; simp [← h5] at h4

/-- The variation criterion minimised over embedding dimensions, in terms of the false-nearest-neighbour counts `f d` in
dimension `d` (the code compares dimensions `d`, `d + 1` and `d + 2`). -/
def variationScore {K : Type _} [Field K] [LinearOrder K] (f : Nat → K) (d : Nat) : K :=
  |f d - 2 * f (d + 1) + f (d + 2)| / (f (d + 1) + 1) / (d : K)

/-- **C07.** For `max_time_delay ≥ 1` and `max_dimension ≥ 2` the search returns parameters within bounds, minimising the two
scores with ties broken towards the smallest value. -/
theorem C07_takens_optimal {K : Type} [Field K] [LinearOrder K] (mi : Nat → K) (fnn : Nat → Nat → K)
    (maxT maxD : Nat) (hT : 1 ≤ maxT) (hD : 2 ≤ maxD) :
    ∃ τ d, takensOptimal mi fnn maxT maxD = .ok (τ, d) ∧ 1 ≤ τ ∧ τ ≤ maxT ∧ 2 ≤ d ∧ d ≤ maxD ∧
      (∀ t, 1 ≤ t → t ≤ maxT → mi τ ≤ mi t) ∧ (∀ t, 1 ≤ t → t < τ → mi τ < mi t) ∧
      (∀ e, 2 ≤ e → e ≤ maxD → variationScore (fnn τ) d ≤ variationScore (fnn τ) e) ∧
      (∀ e, 2 ≤ e → e < d → variationScore (fnn τ) d < variationScore (fnn τ) e) := by
  obtain ⟨m, i, hm, hi, hlt, hmin, hfirst⟩ := argmin_first ((List.range maxT).map fun i => mi (i + 1)) (by
    intro h; have := congrArg List.length h; simp at this; omega)
  simp only [List.length_map, List.length_range, List.getElem_map, List.getElem_range] at hlt hmin hfirst
  have hvar : ((List.range (maxD - 1)).map (· + 2)).mapM (fun (dim : Nat) => do
      let a ← npIndex ((List.range (maxD + 2)).map fun j => fnn (i + 1) (j + 1)) ((dim : Int) - 1)
      let b ← npIndex ((List.range (maxD + 2)).map fun j => fnn (i + 1) (j + 1)) dim
      let c ← npIndex ((List.range (maxD + 2)).map fun j => fnn (i + 1) (j + 1)) ((dim : Int) + 1)
      (Except.ok (|a - 2 * b + c| / (b + 1) / (dim : K)) : PyM K)) =
      .ok ((List.range (maxD - 1)).map fun j => variationScore (fnn (i + 1)) (j + 2)) := by
    rw [mapM_ok_iff, List.forall₂_map_left_iff, List.forall₂_map_right_iff, List.forall₂_same]
    intro j hj
    rw [List.mem_range] at hj
    have e1 : npIndex ((List.range (maxD + 2)).map fun j => fnn (i + 1) (j + 1)) (((j + 2 : Nat) : Int) - 1)
        = .ok (fnn (i + 1) (j + 2)) := by
      rw [npIndex_ok_iff]; exact ⟨j + 1, Or.inl (by push_cast; ring), by simp; omega, by simp⟩
    have e2 : npIndex ((List.range (maxD + 2)).map fun j => fnn (i + 1) (j + 1)) ((j + 2 : Nat) : Int)
        = .ok (fnn (i + 1) (j + 3)) := by
      rw [npIndex_ok_iff]; exact ⟨j + 2, Or.inl (by push_cast; ring), by simp; omega, by simp⟩
    have e3 : npIndex ((List.range (maxD + 2)).map fun j => fnn (i + 1) (j + 1)) (((j + 2 : Nat) : Int) + 1)
        = .ok (fnn (i + 1) (j + 4)) := by
      rw [npIndex_ok_iff]; exact ⟨j + 3, Or.inl (by push_cast; ring), by simp; omega, by simp⟩
    rw [e1, e2, e3]
    rfl
  obtain ⟨v, k, hv, hk, hklt, hkmin, hkfirst⟩ := argmin_first
      ((List.range (maxD - 1)).map fun j => variationScore (fnn (i + 1)) (j + 2)) (by
    intro h; have := congrArg List.length h; simp at this; omega)
  simp only [List.length_map, List.length_range, List.getElem_map, List.getElem_range] at hklt hkmin hkfirst
  refine ⟨i + 1, k + 2, ?_, by omega, by omega, by omega, by omega, ?_, ?_, ?_, ?_⟩
  · unfold takensOptimal
    simp only [hm, hi, ok_bind, ok_map, hvar, hv, hk, pure_ok]
  · intro t h1 h2
    have := hmin (t - 1) (by omega)
    rwa [Nat.sub_add_cancel h1] at this
  · intro t h1 h2
    have := hfirst (t - 1) (by omega)
    rwa [Nat.sub_add_cancel h1] at this
  · intro e h1 h2
    have := hkmin (e - 2) (by omega)
    rwa [Nat.sub_add_cancel h1] at this
  · intro e h1 h2
    have := hkfirst (e - 2) (by omega)
    rwa [Nat.sub_add_cancel h1] at this

example : takensOptimal (K := ℚ) (fun t => if t = 2 then 1 else 3) (fun _ d => if d = 3 then 5 else 1) 4 4 = .ok (2, 4) := by
  decide +kernel

/-- `max_dimension = 1` passes validation but the search then always raises `ValueError` (minimum of an empty list). -/
theorem C07_max_dimension_one_raises {K : Type} [Field K] [LinearOrder K] (mi : Nat → K) (fnn : Nat → Nat → K) (maxT : Nat)
    (hT : 1 ≤ maxT) : takensOptimal mi fnn maxT 1 = .error .valueError := by
  obtain ⟨m, i, hm, hi, -⟩ := argmin_first ((List.range maxT).map fun i => mi (i + 1)) (by
    intro h; have := congrArg List.length h; simp at this; omega)
  unfold takensOptimal
  simp only [hm, hi, ok_bind, ok_map]
  rfl

/-- With `parameters_type='search'`, the fitted dimension is at least 2, so `resample` is aligned with `transform` (C05). -/
theorem C07_search_dimension_ge_two {K : Type} [Field K] [LinearOrder K] (mi : Nat → K) (fnn : Nat → Nat → K)
    (τ d τ' d' : Nat) (hτ : 1 ≤ τ) (hd : 1 ≤ d) (h : singleTakensFit true mi fnn τ d = .ok (τ', d')) :
    1 ≤ τ' ∧ τ' ≤ τ ∧ 2 ≤ d' ∧ d' ≤ d := by
  simp only [singleTakensFit, if_true] at h
  by_cases hd1 : d = 1
  · subst hd1
    rw [C07_max_dimension_one_raises mi fnn τ hτ] at h; cases h
  · obtain ⟨a, b, hab, h1, h2, h3, h4, -⟩ := C07_takens_optimal mi fnn τ d hτ (by omega)
    rw [hab] at h; cases h
    exact ⟨h1, h2, h3, h4⟩

/-! ### C08 -/

theorem labellerTransform_eq {α : Type} (size f : Nat) (X : List α) (hf : 1 ≤ f) :
    labellerTransform size f X = (X.take (X.length - f)).drop (size - 1 - f) := by
  unfold labellerTransform
  simp only [pySlice_toNeg X f hf]
  split
  · have : ((size : Int) - 1 - f) = ((size - 1 - f : Nat) : Int) := by omega
    rw [this, pySlice_from]
  · have : size - 1 - f = 0 := by omega
    rw [this]; rfl

theorem labellerCut_eq {β : Type} (size f : Nat) (yr : List β) :
    labellerCut size f yr = yr.drop (f + 1 - size) := by
  unfold labellerCut
  split
  · have : ((f : Int) - size + 1) = ((f + 1 - size : Nat) : Int) := by omega
    rw [this, pySlice_from]
  · have : f + 1 - size = 0 := by omega
    rw [this]; rfl

theorem labellerWindowed_ok {α β : Type} (size : Nat) (func : List α → β) (y : List α)
    (h : size ≤ y.length) :
    labellerWindowed size func y = .ok ((List.range (y.length - size + 1)).map fun i => func ((y.drop i).take size)) := by
  unfold labellerWindowed
  rw [slidingTransform_ok y size 1 h]
  show Except.ok _ = Except.ok _
  simp [Nat.mod_one]

/-- Position `i` of the cut series is sample `i + (size - 1 - f)`. -/
theorem labeller_sample_index {α : Type} (size f : Nat) (X : List α) (hf : 1 ≤ f) (i : Nat)
    (hi : i < (labellerTransform size f X).length) :
    (labellerTransform size f X)[i]? = X[i + (size - 1 - f)]? ∧ i + (size - 1 - f) + f < X.length := by
  rw [labellerTransform_eq size f X hf] at *
  simp only [List.length_drop, List.length_take] at hi
  constructor
  · rw [List.getElem?_drop, List.getElem?_take, if_pos (by omega)]
    congr 1; omega
  · omega

/-- **C08** (regression labels, i.e. `percentiles=None`). The cut series and the labels have equal length; running `transform` on the time stamps tells
which sample `j` the `i`-th output is, and the `i`-th label is `func` of the `size` consecutive samples ending at time `j + n_steps_future`. -/
theorem C08_labeller_aligned {α β : Type} (size f : Nat) (hs : 1 ≤ size) (hf : 1 ≤ f) (func : List α → β) (X : List α)
    (hn : size ≤ X.length) :
    ∃ yr, labellerResampleReg size f func X = .ok yr ∧ yr.length = (labellerTransform size f X).length ∧
      ∀ i, i < yr.length → ∃ j, (labellerTransform size f (List.range X.length))[i]? = some j ∧
        (labellerTransform size f X)[i]? = X[j]? ∧
        j + f < X.length ∧ size ≤ j + f + 1 ∧
        yr[i]? = some (func ((X.drop (j + f + 1 - size)).take size)) := by
  refine ⟨((List.range (X.length - size + 1)).map fun i => func ((X.drop i).take size)).drop (f + 1 - size), ?_, ?_, ?_⟩
  · unfold labellerResampleReg
    rw [labellerWindowed_ok size func X hn]
    show Except.ok _ = Except.ok _
    rw [labellerCut_eq]
  · rw [labellerTransform_eq size f X hf]
    simp only [List.length_drop, List.length_map, List.length_range, List.length_take]
    omega
  · intro i hi
    simp only [List.length_drop, List.length_map, List.length_range] at hi
    have hlen : i < (labellerTransform size f (List.range X.length)).length := by
      rw [labellerTransform_eq _ _ _ hf]; simp; omega
    have hlen' : i < (labellerTransform size f X).length := by
      rw [labellerTransform_eq _ _ _ hf]; simp; omega
    obtain ⟨h1, h2⟩ := labeller_sample_index size f (List.range X.length) hf i hlen
    obtain ⟨h3, h4⟩ := labeller_sample_index size f X hf i hlen'
    refine ⟨i + (size - 1 - f), ?_, h3, h4, by omega, ?_⟩
    · rw [h1, List.getElem?_range (by omega)]
    · rw [List.getElem?_drop, List.getElem?_map, List.getElem?_range (by omega), Option.map_some]
      congr 4; omega

/-- Series shorter than the window are rejected by `resample` (and by `fit`, which slides the same windows). -/
theorem C08_labeller_short {α β : Type} (size f : Nat) (func : List α → β) (X : List α) (hn : X.length < size) :
    labellerResampleReg size f func X = .error .valueError := by
  unfold labellerResampleReg labellerWindowed slidingTransform
  rw [windowIndices_err _ _ _ (by omega) hn]; rfl

-- both relative orders of `size - 1` and `n_steps_future`
example : labellerTransform 4 1 (List.range 8) = [2, 3, 4, 5, 6] ∧
    labellerResampleReg 4 1 List.sum (List.range 8) = .ok [6, 10, 14, 18, 22] := by decide
example : labellerTransform 2 3 (List.range 8) = [0, 1, 2, 3, 4] ∧
    labellerResampleReg 2 3 List.sum (List.range 8) = .ok [5, 7, 9, 11, 13] := by decide

/-! ### C09 -/

theorem sorted_le_iff_lt_count {K : Type} [LinearOrder K] (th : List K) (hs : th.Pairwise (· ≤ ·)) (v : K) :
    ∀ i, (h : i < th.length) → (th[i] ≤ v ↔ i < th.countP (· ≤ v)) := by
  induction th with
  | nil => intro i h; simp at h
  | cons a t ih =>
    rw [List.pairwise_cons] at hs
    intro i h
    by_cases hav : a ≤ v
    · rw [List.countP_cons_of_pos (by simpa using hav)]
      cases i with
      | zero => simpa using hav
      | succ i => simpa using ih hs.2 i (by simpa using h)
    · have h0 : t.countP (· ≤ v) = 0 := by
        rw [List.countP_eq_zero]
        intro b hb; simp only [decide_eq_true_eq, not_le]
        exact lt_of_lt_of_le (not_le.1 hav) (hs.1 b hb)
      rw [List.countP_cons_of_neg (by simpa using hav), h0]
      constructor
      · intro hle
        cases i with
        | zero => exact absurd (by simpa using hle) hav
        | succ i =>
          exfalso
          have : a ≤ t[i]'(by simpa using h) := hs.1 _ (List.getElem_mem _)
          exact hav (this.trans (by simpa using hle))
      · intro h; omega

theorem filter_range_eq (c m : Nat) (h : c < m) : (List.range m).filter (fun i => decide (c = i)) = [c] := by
  induction m with
  | zero => omega
  | succ m ih =>
    rw [List.range_succ, List.filter_append]
    by_cases hc : c < m
    · rw [ih hc]
      have : c ≠ m := by omega
      simp [this]
    · have : c = m := by omega
      subst this
      have h0 : (List.range c).filter (fun i => decide (c = i)) = [] := by
        rw [List.filter_eq_nil_iff]
        intro a ha; rw [List.mem_range] at ha; simp; omega
      rw [h0]; simp

theorem oneHot_sorted {K : Type} [Zero K] [LinearOrder K] (th : List K) (hne : th ≠ []) (hs : th.Pairwise (· ≤ ·)) (v : K)
    (hv : 0 ≤ v) :
    ∃ row, labellerOneHot th v = .ok row ∧ hotColumns row = [th.countP (· ≤ v)] := by
  cases hth : th with
  | nil => exact absurd hth hne
  | cons t0 t =>
    rw [← hth]
    have hcount : ∀ i, (h : i < th.length) → (th[i] ≤ v ↔ i < th.countP (· ≤ v)) := sorted_le_iff_lt_count th hs v
    have hcle : th.countP (· ≤ v) ≤ th.length := List.countP_le_length
    have hlen : 0 < th.length := by rw [hth]; simp
    set c := th.countP (· ≤ v) with hc
    have hrow : labellerOneHot th v = .ok (
      [decide (0 ≤ v) && decide (v < t0)] ++
      (th.zip th.tail).map (fun p => decide (p.1 ≤ v) && decide (v < p.2)) ++
      [decide (th.getLastD t0 ≤ v)]) := by rw [hth]; rfl
    have ht0 : t0 = th[0] := by simp [hth]
    have hlast : th.getLastD t0 = th[th.length - 1] := by
      rw [List.getLastD_eq_getLast?, List.getLast?_eq_getElem?, List.getElem?_eq_getElem (by omega)]; rfl
    have hrow2 : [decide (0 ≤ v) && decide (v < t0)] ++
      (th.zip th.tail).map (fun p => decide (p.1 ≤ v) && decide (v < p.2)) ++
      [decide (th.getLastD t0 ≤ v)] = (List.range (th.length + 1)).map (fun i => decide (c = i)) := by
      apply List.ext_getElem
      · simp; omega
      · intro i h1 h2
        simp only [List.length_map, List.length_range] at h2
        rw [List.getElem_map, List.getElem_range]
        by_cases hi : i = th.length
        · subst hi
          rw [List.getElem_append_right (by simp; omega)]
          simp only [List.getElem_singleton]
          rw [hlast]
          have := hcount (th.length - 1) (by omega)
          rw [decide_eq_decide, this]; omega
        · rw [List.getElem_append_left (by simp; omega)]
          cases i with
          | zero =>
            simp only [List.singleton_append, List.getElem_cons_zero, hv, decide_true, Bool.true_and]
            rw [decide_eq_decide, ← not_le, ht0, hcount 0 hlen]; omega
          | succ i =>
            simp only [List.singleton_append, List.getElem_cons_succ, List.getElem_map, List.getElem_zip, List.getElem_tail]
            have h3 : v < th[i + 1] ↔ ¬ (i + 1 < c) := by rw [← hcount (i + 1) (by omega), not_le]
            rw [← Bool.decide_and, decide_eq_decide, hcount i (by omega), h3]
            omega
    refine ⟨_, hrow, ?_⟩
    rw [hrow2]
    unfold hotColumns
    rw [List.length_map, List.length_range]
    rw [← filter_range_eq c (th.length + 1) (by omega)]
    apply List.filter_congr
    intro i hi
    rw [List.mem_range] at hi
    simp only [List.getD_eq_getElem?_getD, List.getElem?_map, List.getElem?_range hi, Option.map_some, Option.getD_some]

/-- **C09.** With thresholds in ascending order every non-negative value is labelled by the number of thresholds it reaches. -/
theorem C09_classify_sorted {K : Type} [Zero K] [LinearOrder K] (th : List K) (hne : th ≠ []) (hs : th.Pairwise (· ≤ ·))
    (vs : List K) (hv : ∀ v ∈ vs, 0 ≤ v) :
    labellerClassify th vs = .ok (vs.map fun v => th.countP (· ≤ v)) := by
  have hrows : ∃ rows, vs.mapM (labellerOneHot th) = .ok rows ∧
      rows.map hotColumns = vs.map fun v => [th.countP (· ≤ v)] := by
    induction vs with
    | nil => exact ⟨[], rfl, rfl⟩
    | cons a t ih =>
      obtain ⟨rows, h1, h2⟩ := ih (fun v hv' => hv v (by simp [hv']))
      obtain ⟨row, h3, h4⟩ := oneHot_sorted th hne hs a (hv a (by simp))
      refine ⟨row :: rows, ?_, by simp [h2, h4]⟩
      rw [List.mapM_cons, h3, h1]; rfl
  obtain ⟨rows, h1, h2⟩ := hrows
  have hlen : rows.length = vs.length := by have := congrArg List.length h2; simpa using this
  unfold labellerClassify
  rw [h1]
  show (if _ then _ else _) = _
  have hflat : (rows.map hotColumns).flatten = vs.map fun v => th.countP (· ≤ v) := by
    rw [h2]
    clear h1 h2 hlen hv
    induction vs with
    | nil => rfl
    | cons a t ih => simp [ih]
  rw [hflat, if_pos (by simp [hlen])]

theorem absK_eq {K : Type} [Field K] [LinearOrder K] [IsStrictOrderedRing K] (x : K) : absK x = |x| := by
  unfold absK
  split
  · rw [abs_of_neg ‹_›]
  · rw [abs_of_nonneg (not_lt.1 ‹_›)]

/-- Sorted lists: the interpolated value at a virtual position. -/
theorem percentile_mono {K : Type} [Field K] [LinearOrder K] [IsStrictOrderedRing K] [FloorRing K] (a : List K) (ha : a ≠ [])
    (q r : K) (h0 : 0 ≤ q) (hqr : q ≤ r) (hr : r ≤ 100) : percentile a q ≤ percentile a r := by
  unfold percentile
  set s := a.insertionSort (· ≤ ·) with hsdef
  have hsort : s.Pairwise (· ≤ ·) := List.pairwise_insertionSort _ a
  have hlen : 0 < s.length := by
    rw [hsdef, List.length_insertionSort]; exact List.length_pos_iff.2 ha
  simp only
  have hn : (0 : K) ≤ (s.length : K) - 1 := by
    have : (1 : K) ≤ s.length := by exact_mod_cast hlen
    linarith
  set g : ℕ → K := fun i => s.getD i (s.getLastD 0) with hg
  have hlastval : ∀ i, (h : i < s.length) → s[i] ≤ s.getLastD 0 := by
    intro i h
    rw [List.getLastD_eq_getLast?, List.getLast?_eq_getElem?, List.getElem?_eq_getElem (by omega), Option.getD_some]
    rcases Nat.lt_or_ge i (s.length - 1) with h1 | h1
    · exact (List.pairwise_iff_getElem.1 hsort) _ _ _ _ h1
    · have : i = s.length - 1 := by omega
      subst this; exact le_refl _
  have hmono : Monotone g := by
    apply monotone_nat_of_le_succ
    intro i
    simp only [hg, List.getD_eq_getElem?_getD]
    by_cases h1 : i + 1 < s.length
    · rw [List.getElem?_eq_getElem h1, List.getElem?_eq_getElem (by omega)]
      simpa using (List.pairwise_iff_getElem.1 hsort) _ _ _ _ (Nat.lt_succ_self i)
    · rw [List.getElem?_eq_none (by omega : s.length ≤ i + 1)]
      by_cases h2 : i < s.length
      · rw [List.getElem?_eq_getElem h2]; simpa using hlastval i h2
      · rw [List.getElem?_eq_none (by omega)]
  set p := q / 100 * ((s.length : K) - 1) with hp
  set t := r / 100 * ((s.length : K) - 1) with ht
  have hpt : p ≤ t := by
    apply mul_le_mul_of_nonneg_right _ hn
    exact div_le_div_of_nonneg_right hqr (by norm_num)
  have hp0 : 0 ≤ p := mul_nonneg (div_nonneg h0 (by norm_num)) hn
  have hi0 : (0 : ℤ) ≤ ⌊p⌋ := Int.floor_nonneg.2 hp0
  have hj0 : (0 : ℤ) ≤ ⌊t⌋ := Int.floor_nonneg.2 (hp0.trans hpt)
  set i := ⌊p⌋.toNat with hi
  set j := ⌊t⌋.toNat with hj
  have hiK : (i : K) = (⌊p⌋ : K) := by rw [hi]; exact_mod_cast congrArg (Int.cast (R := K)) (Int.toNat_of_nonneg hi0)
  have hjK : (j : K) = (⌊t⌋ : K) := by rw [hj]; exact_mod_cast congrArg (Int.cast (R := K)) (Int.toNat_of_nonneg hj0)
  have hpi : (i : K) ≤ p := by rw [hiK]; exact Int.floor_le p
  have hpi1 : p ≤ (i : K) + 1 := by rw [hiK]; exact (Int.lt_floor_add_one p).le
  have htj : (j : K) ≤ t := by rw [hjK]; exact Int.floor_le t
  have hij : i ≤ j := Int.toNat_le_toNat (Int.floor_le_floor hpt)
  show g i + (g (i + 1) - g i) * (p - i) ≤ g j + (g (j + 1) - g j) * (t - j)
  have hgi : 0 ≤ g (i + 1) - g i := by have := hmono (Nat.le_succ i); linarith
  have hgj : 0 ≤ g (j + 1) - g j := by have := hmono (Nat.le_succ j); linarith
  rcases Nat.eq_or_lt_of_le hij with h | h
  · rw [← h] at *
    have : (g (i + 1) - g i) * (p - i) ≤ (g (i + 1) - g i) * (t - i) :=
      mul_le_mul_of_nonneg_left (by linarith) hgi
    linarith
  · have h1 : (g (i + 1) - g i) * (p - i) ≤ (g (i + 1) - g i) * 1 := mul_le_mul_of_nonneg_left (by linarith) hgi
    have h2 : g (i + 1) ≤ g j := hmono h
    have h3 : 0 ≤ (g (j + 1) - g j) * (t - j) := mul_nonneg hgj (by linarith)
    linarith

/-- The fitted thresholds are percentiles in the sense of the specification. -/
theorem percentile_spec {K : Type} [Field K] [LinearOrder K] [IsStrictOrderedRing K] [FloorRing K] (a : List K) (ha : a ≠ [])
    (q : K) (h0 : 0 ≤ q) (h1 : q ≤ 100) : IsPercentile a q (percentile a q) := by
  have hlena : 0 < a.length := List.length_pos_iff.2 ha
  have hn : (0 : K) ≤ (a.length : K) - 1 := by
    have : (1 : K) ≤ a.length := by exact_mod_cast hlena
    linarith
  set p := q / 100 * ((a.length : K) - 1) with hp
  have hp0 : 0 ≤ p := mul_nonneg (div_nonneg h0 (by norm_num)) hn
  have hp1 : p ≤ (a.length : K) - 1 := by
    have : q / 100 ≤ 1 := by rw [div_le_one (by norm_num)]; exact h1
    calc p ≤ 1 * ((a.length : K) - 1) := mul_le_mul_of_nonneg_right this hn
      _ = _ := one_mul _
  have hi0 : (0 : ℤ) ≤ ⌊p⌋ := Int.floor_nonneg.2 hp0
  have hiK : ((⌊p⌋.toNat : ℕ) : K) = (⌊p⌋ : K) := by exact_mod_cast congrArg (Int.cast (R := K)) (Int.toNat_of_nonneg hi0)
  have hle : ((⌊p⌋.toNat : ℕ) : K) ≤ p := by rw [hiK]; exact Int.floor_le p
  have hlt : p < ((⌊p⌋.toNat : ℕ) : K) + 1 := by rw [hiK]; exact Int.lt_floor_add_one p
  have hlen : (a.insertionSort (· ≤ ·)).length = a.length := List.length_insertionSort _ _
  refine ⟨a.insertionSort (· ≤ ·), List.perm_insertionSort _ a, List.pairwise_insertionSort _ a, ⌊p⌋.toNat, p - (⌊p⌋.toNat : ℕ),
    by linarith, by linarith, ?_, ?_⟩
  · rw [hp]; field_simp; ring
  · have hk : ⌊p⌋.toNat + 1 ≤ a.length := by
      have : ((⌊p⌋.toNat : ℕ) : K) + 1 ≤ a.length := by linarith
      exact_mod_cast this
    rcases Nat.lt_or_eq_of_le hk with h | h
    · left
      refine ⟨h, _, _, List.getElem?_eq_getElem (by omega), List.getElem?_eq_getElem (by omega), ?_⟩
      unfold percentile
      simp only [hlen, ← hp]
      rw [List.getD_eq_getElem?_getD, List.getD_eq_getElem?_getD, List.getElem?_eq_getElem (by omega),
        List.getElem?_eq_getElem (by omega), Option.getD_some, Option.getD_some]
    · right
      have hu : p - (⌊p⌋.toNat : ℕ) = 0 := by
        have : ((⌊p⌋.toNat : ℕ) : K) + 1 = a.length := by exact_mod_cast h
        linarith
      refine ⟨h, hu, ?_⟩
      unfold percentile
      simp only [hlen, ← hp]
      rw [hu, mul_zero, add_zero, List.getD_eq_getElem?_getD, List.getElem?_eq_getElem (by omega), Option.getD_some]

/-- **C09.** `Labeller` fitted on `X` with a non-empty ascending list of percentiles in `[0, 100]`: every fitted threshold is the percentile of the absolute
values of `func` on the windows of `X`; `resample(y)` never raises and gives, for every
window kept, the number of fitted thresholds that are at most the absolute value of `func` on the window. -/
theorem C09_labeller_classes {α K : Type} [Field K] [LinearOrder K] [IsStrictOrderedRing K] [FloorRing K] (size f : Nat)
    (hs : 1 ≤ size) (func : List α → K) (percentiles : List K) (hp : percentiles ≠ [])
    (hsorted : percentiles.Pairwise (· ≤ ·)) (hrange : ∀ q ∈ percentiles, 0 ≤ q ∧ q ≤ 100)
    (X y : List α) (hX : size ≤ X.length) (hy : size ≤ y.length) :
    ∃ th vals, labellerThresholds size func percentiles X = .ok th ∧ th.Pairwise (· ≤ ·) ∧
      List.Forall₂ (IsPercentile ((List.range (X.length - size + 1)).map fun i => |func ((X.drop i).take size)|)) percentiles th ∧
      labellerResampleReg size f func y = .ok vals ∧
      labellerResampleClf size f func th y = .ok (vals.map fun v => th.countP (· ≤ |v|)) ∧
      ∀ v ∈ vals, th.countP (· ≤ |v|) ≤ percentiles.length := by
  refine ⟨percentiles.map (percentile (((List.range (X.length - size + 1)).map fun i => func ((X.drop i).take size)).map absK)),
    ((List.range (y.length - size + 1)).map fun i => func ((y.drop i).take size)).drop (f + 1 - size), ?_, ?_, ?_, ?_, ?_, ?_⟩
  · unfold labellerThresholds
    rw [labellerWindowed_ok size func X hX]; rfl
  · rw [List.pairwise_map]
    apply List.Pairwise.imp_of_mem _ hsorted
    intro a b ha hb hab
    apply percentile_mono _ _ a b (hrange a ha).1 hab (hrange b hb).2
    intro h; have := congrArg List.length h; simp at this
  · have habs : ((List.range (X.length - size + 1)).map fun i => |func ((X.drop i).take size)|) =
        ((List.range (X.length - size + 1)).map fun i => func ((X.drop i).take size)).map absK := by
      rw [List.map_map]; congr 1; funext i; simp only [Function.comp, absK_eq]
    rw [habs, List.forall₂_map_right_iff, List.forall₂_same]
    intro q hq
    apply percentile_spec _ _ q (hrange q hq).1 (hrange q hq).2
    intro h; have := congrArg List.length h; simp at this
  · unfold labellerResampleReg
    rw [labellerWindowed_ok size func y hy]
    show Except.ok _ = Except.ok _
    rw [labellerCut_eq]
  · unfold labellerResampleClf
    rw [labellerWindowed_ok size func y hy]
    show (do let c ← labellerClassify _ _; pure (labellerCut size f c)) = _
    rw [C09_classify_sorted]
    · show Except.ok _ = Except.ok _
      rw [labellerCut_eq, List.map_map, ← List.map_drop]
      congr 2
      funext v
      simp only [Function.comp, absK_eq]
    · simpa using hp
    · rw [List.pairwise_map]
      apply List.Pairwise.imp_of_mem _ hsorted
      intro a b ha hb hab
      apply percentile_mono _ _ a b (hrange a ha).1 hab (hrange b hb).2
      intro h; have := congrArg List.length h; simp at this
    · intro v hv
      obtain ⟨w, -, rfl⟩ := List.mem_map.1 hv
      rw [absK_eq]; exact abs_nonneg _
  · intro v _
    have := List.countP_le_length (p := fun x => decide (x ≤ |v|)) (l := percentiles.map (percentile
      (((List.range (X.length - size + 1)).map fun i => func ((X.drop i).take size)).map absK)))
    simpa using this

example : labellerThresholds 1 (fun w => w.sum) [25, 75] [(4 : ℚ), 1, 3, 2, 5] = .ok [2, 4] ∧
    labellerResampleClf 1 1 (fun w => w.sum) [2, 4] [(4 : ℚ), 1, 3, 2, 5] = .ok [0, 1, 1, 2] := by decide +kernel

/-- **C09 is false for percentiles listed out of order** (accepted by validation): `resample` raises `ValueError`. -/
theorem C09_refuted_unsorted :
    labellerThresholds 1 (fun w => w.sum) [75, 25] [(4 : ℚ), 1, 3, 2, 5] = .ok [4, 2] ∧
    labellerResampleClf 1 1 (fun w => w.sum) [4, 2] [(4 : ℚ), 1, 3, 2, 5] = .error .valueError := by decide +kernel

/-- An empty percentile list (accepted by validation) raises `IndexError` on every series with at least one window. -/
theorem C09_empty_percentiles_raise {α K : Type} [Field K] [LinearOrder K] (size f : Nat) (func : List α → K) (y : List α)
    (hy : size ≤ y.length) : labellerResampleClf size f func [] y = .error .indexError := by
  unfold labellerResampleClf
  rw [labellerWindowed_ok size func y hy, List.range_succ_eq_map]
  rfl

/-! ### C10 -/

theorem resampler_eq {α : Type} (p : Nat) (hp : 1 ≤ p) (X : List α) :
    (pySlice none none (p : Int) X).length = (X.length + p - 1) / p ∧
    ∀ i, i < (X.length + p - 1) / p → (pySlice none none (p : Int) X)[i]? = X[i * p]? ∧ i * p < X.length := by
  have hst : sliceStart (X.length : Int) (p : Int) none = 0 := by simp only [sliceStart]; rw [if_neg (by omega)]
  have hsp : sliceStop (X.length : Int) (p : Int) none = X.length := by simp only [sliceStop]; rw [if_neg (by omega)]
  have hlen := length_pySlice none none (p : Int) (by omega) X
  have hsl : sliceLen 0 (X.length : Int) p = (X.length + p - 1) / p := by
    unfold sliceLen
    rw [if_neg (by omega)]
    split
    · rename_i h
      have : ((X.length : Int) - 0 - 1) = ((X.length - 1 : Nat) : Int) := by omega
      rw [this, ← Int.natCast_ediv]
      have h2 : X.length + p - 1 = (X.length - 1) + p := by omega
      rw [h2, Nat.add_div_right _ (by omega)]
      generalize (X.length - 1) / p = q
      omega
    · have h2 : X.length = 0 := by omega
      rw [h2, Nat.zero_add, Nat.div_eq_of_lt (by omega)]
  rw [hst, hsp, hsl] at hlen
  refine ⟨hlen, fun i hi => ?_⟩
  have hb := slice_index_bounds X.length p (by omega) (by omega) none none i (by rw [hst, hsp, hsl]; exact hi)
  rw [hst] at hb
  rw [getElem?_pySlice _ _ _ (by omega) _ _ (by rw [hst, hsp, hsl]; exact hi), hst]
  have : (0 : Int) + (i : Int) * p = ((i * p : Nat) : Int) := by push_cast; ring
  rw [this] at hb ⊢
  exact ⟨by rw [Int.toNat_natCast], by omega⟩

theorem pySlice_all {α : Type} (X : List α) : pySlice none none 1 X = X := by
  have h := pySlice_from X 0
  apply List.ext_getElem?
  intro i
  obtain ⟨hl, hg⟩ := resampler_eq 1 (le_refl _) X
  by_cases hi : i < X.length
  · have := (hg i (by simpa using hi)).1
    simpa using this
  · rw [List.getElem?_eq_none (by simp at hl; omega), List.getElem?_eq_none (by omega)]

/-- **C10.** `Resampler` keeps exactly the samples `0, period, 2*period, …` of `X` and of `y`, `⌈n / period⌉` of them. -/
theorem C10_resampler {α β : Type} (p : Nat) (hp : 1 ≤ p) (X : List α) (y : List β) (hxy : X.length = y.length) :
    (resamplerTransform p X).length = (resamplerResample p y).length ∧
    (resamplerTransform p X).length = (X.length + p - 1) / p ∧
    ∀ i, i < (resamplerTransform p X).length → i * p < X.length ∧
      (resamplerTransform p X)[i]? = X[i * p]? ∧ (resamplerResample p y)[i]? = y[i * p]? := by
  unfold resamplerTransform resamplerResample
  rw [pySlice_all]
  obtain ⟨h1, h2⟩ := resampler_eq p hp X
  obtain ⟨h3, h4⟩ := resampler_eq p hp y
  refine ⟨by rw [h1, h3, hxy], h1, ?_⟩
  intro i hi
  rw [h1] at hi
  exact ⟨(h2 i hi).2, (h2 i hi).1, (h4 i (by rw [← hxy]; exact hi)).1⟩

example : resamplerTransform 3 (List.range 8) = [0, 3, 6] := by decide

/-- The documented length `n_samples // period` is wrong when `period` does not divide `n_samples`. -/
theorem C10_documented_length_refuted : ¬ ∀ (p : Nat) (X : List Nat), 1 ≤ p → (resamplerTransform p X).length = X.length / p := by
  intro h; exact absurd (h 2 [1, 2, 3] (by decide)) (by decide)

/-! ### C11 -/

theorem npDiff_get {K : Type} [Sub K] (x : List K) : (npDiff x).length = x.length - 1 ∧
    ∀ i, (h : i + 1 < x.length) → (npDiff x)[i]? = some (x[i + 1] - x[i]) := by
  unfold npDiff
  constructor
  · simp
  · intro i h
    rw [List.getElem?_zipWith, List.getElem?_eq_getElem (by omega), List.getElem?_tail, List.getElem?_eq_getElem h]

/-- **C11** (`operation='return'`). Entry `i` of the output relates samples `i` and `i + 1` and is aligned with target `i + 1`. -/
theorem C11_stationarizer_return {K β : Type} [Field K] (X : List K) (y : List β) (hxy : X.length = y.length) :
    (stationReturn X).length = X.length - 1 ∧ (stationResample y).length = (stationReturn X).length ∧
    ∀ i, (h : i + 1 < X.length) → ∃ r, (stationReturn X)[i]? = some r ∧ (stationResample y)[i]? = y[i + 1]? ∧
      (X[i + 1] ≠ 0 → X[i] = X[i + 1] * (1 - r)) := by
  have h1 : pySlice (some 1) none 1 X = X.drop 1 := pySlice_from X 1
  have h1y : pySlice (some 1) none 1 y = y.drop 1 := pySlice_from y 1
  unfold stationReturn stationResample
  rw [h1, h1y]
  obtain ⟨hl, hg⟩ := npDiff_get X
  refine ⟨by simp [hl], by simp [hl, hxy], ?_⟩
  intro i h
  refine ⟨(X[i + 1] - X[i]) / X[i + 1], ?_, ?_, ?_⟩
  · rw [List.getElem?_zipWith, hg i h, List.getElem?_drop, Nat.add_comm 1 i, List.getElem?_eq_getElem h]
  · rw [List.getElem?_drop, Nat.add_comm 1 i]
  · intro hne
    field_simp
    ring

example : stationReturn [(2 : ℚ), 4, 5] = [1 / 2, 1 / 5] := by decide +kernel

theorem sum_diff_telescope {K : Type} [AddCommGroup K] (x : List K) (i j : Nat) (hij : i ≤ j) (hj : j < x.length) :
    (((npDiff x).drop i).take (j - i)).sum = x[j] - x[i] := by
  induction j, hij using Nat.le_induction with
  | base => simp
  | succ j hij ih =>
    obtain ⟨hl, hg⟩ := npDiff_get x
    have h1 : j + 1 - i = (j - i) + 1 := by omega
    have hlt : j - i < ((npDiff x).drop i).length := by rw [List.length_drop, hl]; omega
    have hel : ((npDiff x).drop i)[j - i] = x[j + 1] - x[j] := by
      have h3 := hg j hj
      have h2 : i + (j - i) = j := by omega
      rw [List.getElem_drop]
      rw [List.getElem?_eq_some_iff] at h3
      obtain ⟨h4, h5⟩ := h3
      simp only [h2]
      exact h5
    rw [h1, List.take_succ_eq_append_getElem hlt, List.sum_append, ih (by omega), List.sum_singleton, hel]
    abel

/-- **C11** (`operation='log-return'`, positive samples). Adding up the outputs between times `i` and `j` gives `log (X[j] / X[i])`, so the series
is recovered from its first sample; the output is aligned with `y[1:]`. -/
theorem C11_stationarizer_log_return {β : Type} (X : List ℝ) (y : List β) (hxy : X.length = y.length) (hpos : ∀ x ∈ X, 0 < x) :
    (stationLogReturn Real.log X).length = X.length - 1 ∧
    (stationResample y).length = (stationLogReturn Real.log X).length ∧
    (∀ i, i + 1 < X.length → (stationResample y)[i]? = y[i + 1]?) ∧
    ∀ i j, (hij : i ≤ j) → (hj : j < X.length) →
      X[j] = X[i] * Real.exp (((stationLogReturn Real.log X).drop i).take (j - i)).sum := by
  have h1y : pySlice (some 1) none 1 y = y.drop 1 := pySlice_from y 1
  unfold stationLogReturn stationResample
  rw [h1y]
  obtain ⟨hl, hg⟩ := npDiff_get (X.map Real.log)
  simp only [List.length_map] at hl
  refine ⟨hl, by simp [hl, hxy], ?_, ?_⟩
  · intro i _; rw [List.getElem?_drop, Nat.add_comm 1 i]
  · intro i j hij hj
    rw [sum_diff_telescope (X.map Real.log) i j hij (by simpa using hj)]
    simp only [List.getElem_map]
    have hi : 0 < X[i] := hpos _ (List.getElem_mem _)
    have hjp : 0 < X[j] := hpos _ (List.getElem_mem _)
    rw [Real.exp_sub, Real.exp_log hi, Real.exp_log hjp]
    field_simp

example : ∀ x ∈ [(1 : ℝ), 2, 3], 0 < x := by intro x hx; fin_cases hx <;> norm_num

end Gtda.Props
