import Mathlib.Data.List.Basic
import Mathlib.Tactic.Linarith
import Mathlib.Tactic.Ring

set_option autoImplicit false

/-!
# Python and numpy primitives: exceptions, slices, indexing

Nothing in this file is giotto-tda code; it transcribes the documented semantics of the host language.
-/

namespace Gtda.Py

/-- The Python exception classes that occur in the modelled code. Messages are dropped. -/
inductive PyErr
  | valueError | typeError | indexError | keyError | attributeError
  | notFitted | notImplemented | stopIteration | overflowError | zeroDivision | nameError
  deriving DecidableEq, Repr

/-- A Python computation that may raise. -/
abbrev PyM := Except PyErr

/-- Resolution of one bound of a slice, CPython `PySlice_AdjustIndices` (Objects/sliceobject.c):
negative bounds count from the end, then the bound is clamped to the range allowed by the sign of the step. -/
def adjustBound (n step b : Int) : Int :=
  let b' := if b < 0 then b + n else b
  if b' < 0 then (if step < 0 then -1 else 0)
  else if n ≤ b' then (if step < 0 then n - 1 else n)
  else b'

/-- First index of the slice `start:stop:step` on a sequence of length `n`. -/
def sliceStart (n step : Int) : Option Int → Int
  | none => if step < 0 then n - 1 else 0
  | some b => adjustBound n step b

/-- Resolved stop of the slice `start:stop:step` on a sequence of length `n`. -/
def sliceStop (n step : Int) : Option Int → Int
  | none => if step < 0 then -1 else n
  | some b => adjustBound n step b

/-- Number of indices in a resolved slice (CPython `PySlice_AdjustIndices`, return value). -/
def sliceLen (start stop step : Int) : Nat :=
  if step < 0 then
    (if stop < start then ((start - stop - 1) / (-step) + 1).toNat else 0)
  else
    (if start < stop then ((stop - start - 1) / step + 1).toNat else 0)

/-- `l[start:stop:step]` (with `step ≠ 0`). -/
def pySlice {α : Type _} (start stop : Option Int) (step : Int) (l : List α) : List α :=
  let n : Int := l.length
  let a := sliceStart n step start
  let z := sliceStop n step stop
  (List.range (sliceLen a z step)).filterMap fun (i : Nat) => l[(a + (i : Int) * step).toNat]?

/-- `l[i]` with Python's negative indices; `IndexError` when out of range. -/
def npIndex {α : Type _} (l : List α) (i : Int) : PyM α :=
  let j := if i < 0 then i + l.length else i
  if j < 0 then .error .indexError
  else match l[j.toNat]? with
    | some x => .ok x
    | none => .error .indexError

/-- Integer-array ("fancy") indexing `l[idx]`. -/
def fancy {α : Type _} (l : List α) (idx : List Int) : PyM (List α) := idx.mapM (npIndex l)

/-! ### Lemmas -/

@[simp] theorem ok_bind {α β : Type _} (a : α) (f : α → PyM β) : ((Except.ok a : PyM α) >>= f) = f a := rfl
@[simp] theorem error_bind {α β : Type _} (e : PyErr) (f : α → PyM β) :
    ((Except.error e : PyM α) >>= f) = .error e := rfl
@[simp] theorem ok_map {α β : Type _} (a : α) (f : α → β) : (f <$> (Except.ok a : PyM α)) = .ok (f a) := rfl
@[simp] theorem error_map {α β : Type _} (e : PyErr) (f : α → β) : (f <$> (Except.error e : PyM α)) = .error e := rfl
@[simp] theorem pure_ok {α : Type _} (a : α) : (pure a : PyM α) = .ok a := rfl

theorem mapM_ok {α β : Type _} {f : α → PyM β} {g : α → β} {l : List α}
    (h : ∀ x ∈ l, f x = .ok (g x)) : l.mapM f = .ok (l.map g) := by
  induction l with
  | nil => rfl
  | cons a t ih =>
    rw [List.mapM_cons, h a (by simp), ih (fun x hx => h x (by simp [hx]))]
    rfl

theorem npIndex_nat {α : Type _} (l : List α) (i : Nat) (h : i < l.length) :
    npIndex l (i : Int) = .ok l[i] := by
  have h1 : ¬ ((i : Int) < 0) := by omega
  simp [npIndex, h1, h]

theorem npIndex_ok_iff {α : Type _} (l : List α) (i : Int) (x : α) :
    npIndex l i = .ok x ↔
      ∃ j : Nat, (i = j ∨ i = (j : Int) - l.length) ∧ ∃ h : j < l.length, l[j] = x := by
  unfold npIndex
  constructor
  · intro h
    generalize hj : (if i < 0 then i + (l.length : Int) else i) = j at h
    simp only at h
    by_cases h0 : j < 0
    · simp [h0] at h
    · rw [if_neg h0] at h
      cases hy : l[j.toNat]? with
      | none => simp [hy] at h
      | some y =>
        obtain ⟨hlt, hg⟩ := List.getElem?_eq_some_iff.1 hy
        simp only [hy, Except.ok.injEq] at h
        refine ⟨_, ?_, hlt, hg.trans h⟩
        split at hj <;> omega
  · rintro ⟨j, hj, hlt, rfl⟩
    have hj' : (if i < 0 then i + (l.length : Int) else i) = j := by
      rcases hj with rfl | rfl
      · simp
      · have : ((j : Int) - l.length < 0) := by omega
        simp [this]
    simp [hj', hlt]

theorem length_filterMap_some {α : Type _} (l : List α) (f : Nat → Nat) (m : Nat)
    (h : ∀ i < m, f i < l.length) :
    ((List.range m).filterMap fun i => l[f i]?).length = m := by
  induction m with
  | zero => simp
  | succ m ih =>
    have hm := h m (Nat.lt_succ_self m)
    rw [List.range_succ, List.filterMap_append, List.length_append, ih (fun i hi => h i (by omega))]
    simp [hm]

theorem getElem?_filterMap_some {α : Type _} (l : List α) (f : Nat → Nat) (m : Nat)
    (h : ∀ i < m, f i < l.length) (i : Nat) (hi : i < m) :
    ((List.range m).filterMap fun i => l[f i]?)[i]? = l[f i]? := by
  induction m with
  | zero => omega
  | succ m ih =>
    have hl := length_filterMap_some l f m (fun i hi => h i (by omega))
    have hm := h m (Nat.lt_succ_self m)
    rw [List.range_succ, List.filterMap_append]
    rcases Nat.lt_succ_iff_lt_or_eq.1 hi with h1 | h1
    · rw [List.getElem?_append_left (by omega)]
      exact ih (fun i hi => h i (by omega)) h1
    · subst h1
      rw [List.getElem?_append_right (by omega), hl]
      simp [hm]

/-- All indices of a resolved slice are in range. -/
theorem slice_index_bounds (n step : Int) (hn : 0 ≤ n) (hs : step ≠ 0) (start stop : Option Int) (i : Nat)
    (hi : i < sliceLen (sliceStart n step start) (sliceStop n step stop) step) :
    0 ≤ sliceStart n step start + (i : Int) * step ∧
      sliceStart n step start + (i : Int) * step < n := by
  have hstart : (step < 0 → -1 ≤ sliceStart n step start ∧ sliceStart n step start ≤ n - 1) ∧
      (0 < step → 0 ≤ sliceStart n step start ∧ sliceStart n step start ≤ n) := by
    cases start with
    | none => simp only [sliceStart]; constructor <;> intro h <;> split <;> omega
    | some b =>
      simp only [sliceStart, adjustBound]
      constructor <;> intro h <;> split <;> split <;> (try split) <;> (try split) <;> omega
  have hstop : (step < 0 → -1 ≤ sliceStop n step stop ∧ sliceStop n step stop ≤ n) ∧
      (0 < step → 0 ≤ sliceStop n step stop ∧ sliceStop n step stop ≤ n) := by
    cases stop with
    | none => simp only [sliceStop]; constructor <;> intro h <;> split <;> omega
    | some b =>
      simp only [sliceStop, adjustBound]
      constructor <;> intro h <;> split <;> split <;> (try split) <;> (try split) <;> omega
  generalize sliceStart n step start = a at *
  generalize sliceStop n step stop = z at *
  unfold sliceLen at hi
  rcases lt_or_gt_of_ne hs with hneg | hpos
  · simp only [hneg, if_true] at hi
    split at hi
    · rename_i hza
      have hd : 0 ≤ (a - z - 1) / (-step) := Int.ediv_nonneg (by omega) (by omega)
      have hle : (i : Int) ≤ (a - z - 1) / (-step) := by omega
      have h1 : (i : Int) * (-step) ≤ (a - z - 1) / (-step) * (-step) :=
        mul_le_mul_of_nonneg_right hle (by omega)
      have h2 : (a - z - 1) / (-step) * (-step) ≤ a - z - 1 := Int.ediv_mul_le _ (by omega)
      have h3 : (i : Int) * (-step) = -((i : Int) * step) := by ring
      have h4 : 0 ≤ (i : Int) * (-step) := mul_nonneg (by omega) (by omega)
      have := hstart.1 hneg
      have := hstop.1 hneg
      constructor <;> linarith
    · omega
  · have hnn : ¬ step < 0 := by omega
    simp only [hnn, if_false] at hi
    split at hi
    · rename_i haz
      have hle : (i : Int) ≤ (z - a - 1) / step := by
        have hd : 0 ≤ (z - a - 1) / step := Int.ediv_nonneg (by omega) (by omega)
        omega
      have h1 : (i : Int) * step ≤ (z - a - 1) / step * step := mul_le_mul_of_nonneg_right hle (by omega)
      have h2 : (z - a - 1) / step * step ≤ z - a - 1 := Int.ediv_mul_le _ (by omega)
      have h4 : 0 ≤ (i : Int) * step := mul_nonneg (by omega) (by omega)
      have := hstart.2 hpos
      have := hstop.2 hpos
      constructor <;> linarith
    · omega

theorem length_pySlice {α : Type _} (start stop : Option Int) (step : Int) (hs : step ≠ 0) (l : List α) :
    (pySlice start stop step l).length =
      sliceLen (sliceStart l.length step start) (sliceStop l.length step stop) step := by
  unfold pySlice
  apply length_filterMap_some l (fun i : Nat => (sliceStart l.length step start + (i : Int) * step).toNat)
  intro i hi
  have := slice_index_bounds l.length step (by omega) hs start stop i hi
  omega

theorem getElem?_pySlice {α : Type _} (start stop : Option Int) (step : Int) (hs : step ≠ 0) (l : List α)
    (i : Nat) (hi : i < sliceLen (sliceStart l.length step start) (sliceStop l.length step stop) step) :
    (pySlice start stop step l)[i]? = l[(sliceStart l.length step start + (i : Int) * step).toNat]? := by
  unfold pySlice
  apply getElem?_filterMap_some l (fun i : Nat => (sliceStart l.length step start + (i : Int) * step).toNat)
  · intro i hi
    have := slice_index_bounds l.length step (by omega) hs start stop i hi
    omega
  · exact hi

/-- `l[::-1]` reverses. -/
theorem pySlice_rev {α : Type _} (l : List α) : pySlice none none (-1) l = l.reverse := by
  apply List.ext_getElem?
  intro i
  have hlen : sliceLen (sliceStart l.length (-1) none) (sliceStop l.length (-1) none) (-1) = l.length := by
    simp only [sliceLen, sliceStart, sliceStop, Int.reduceNeg, Int.reduceLT, if_true, Int.neg_neg, Int.ediv_one]
    split <;> omega
  by_cases hi : i < l.length
  · rw [getElem?_pySlice _ _ _ (by omega) _ _ (by omega), List.getElem?_reverse hi]
    congr 1
    simp only [sliceStart]; norm_num; omega
  · have h1 := length_pySlice none none (-1) (by omega) l
    rw [List.getElem?_eq_none (by omega), List.getElem?_eq_none (by simp; omega)]

/-- `l[k:]` for `k ≥ 0` drops. -/
theorem pySlice_from {α : Type _} (l : List α) (k : Nat) : pySlice (some (k : Int)) none 1 l = l.drop k := by
  have ha : sliceStart (l.length : Int) 1 (some (k : Int)) = min k l.length := by
    simp only [sliceStart, adjustBound]; split <;> split <;> (try split) <;> omega
  have hz : sliceStop (l.length : Int) 1 none = l.length := by simp [sliceStop]
  have hlen : sliceLen (sliceStart l.length 1 (some (k : Int))) (sliceStop l.length 1 none) 1 = l.length - k := by
    rw [ha, hz]; simp only [sliceLen, Int.reduceLT, if_false, Int.ediv_one]; split <;> omega
  apply List.ext_getElem?
  intro i
  by_cases hi : i < l.length - k
  · rw [getElem?_pySlice _ _ _ (by omega) _ _ (by omega), List.getElem?_drop, ha]
    congr 1; omega
  · have h1 := length_pySlice (some (k : Int)) none 1 (by omega) l
    rw [List.getElem?_eq_none (by omega), List.getElem?_eq_none (by simp; omega)]

/-- `l[:k]` for `k ≥ 0` takes. -/
theorem pySlice_to {α : Type _} (l : List α) (k : Nat) : pySlice none (some (k : Int)) 1 l = l.take k := by
  have ha : sliceStart (l.length : Int) 1 none = 0 := by simp [sliceStart]
  have hz : sliceStop (l.length : Int) 1 (some (k : Int)) = min k l.length := by
    simp only [sliceStop, adjustBound]; split <;> split <;> (try split) <;> omega
  have hlen : sliceLen (sliceStart l.length 1 none) (sliceStop l.length 1 (some (k : Int))) 1 = min k l.length := by
    rw [ha, hz]; simp only [sliceLen, Int.reduceLT, if_false, Int.ediv_one]; split <;> omega
  apply List.ext_getElem?
  intro i
  by_cases hi : i < min k l.length
  · rw [getElem?_pySlice _ _ _ (by omega) _ _ (by omega), List.getElem?_take, ha, if_pos (by omega)]
    congr 1; omega
  · have h1 := length_pySlice none (some (k : Int)) 1 (by omega) l
    rw [List.getElem?_eq_none (by omega), List.getElem?_eq_none (by simp; omega)]

/-- `l[:-k]` for `k ≥ 1` drops the last `k` entries. -/
theorem pySlice_toNeg {α : Type _} (l : List α) (k : Nat) (hk : 1 ≤ k) :
    pySlice none (some (-(k : Int))) 1 l = l.take (l.length - k) := by
  have ha : sliceStart (l.length : Int) 1 none = 0 := by simp [sliceStart]
  have hz : sliceStop (l.length : Int) 1 (some (-(k : Int))) = ((l.length - k : Nat) : Int) := by
    simp only [sliceStop, adjustBound]; split <;> split <;> (try split) <;> omega
  have hlen : sliceLen (sliceStart l.length 1 none) (sliceStop l.length 1 (some (-(k : Int)))) 1 = l.length - k := by
    rw [ha, hz]; simp only [sliceLen, Int.reduceLT, if_false, Int.ediv_one]; split <;> omega
  apply List.ext_getElem?
  intro i
  by_cases hi : i < l.length - k
  · rw [getElem?_pySlice _ _ _ (by omega) _ _ (by omega), List.getElem?_take, ha, if_pos (by omega)]
    congr 1; omega
  · have h1 := length_pySlice none (some (-(k : Int))) 1 (by omega) l
    rw [List.getElem?_eq_none (by omega), List.getElem?_eq_none (by simp; omega)]

end Gtda.Py
