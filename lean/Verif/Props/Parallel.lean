import Verif.Model.Parallel

set_option autoImplicit false

/-!
# C17: the number of jobs and the schedule do not change results
-/

namespace Gtda.Props
open Gtda.Py Gtda.Parallel

/-- Contiguous non-empty slices from `a` to `b`. -/
inductive Contiguous : Nat → Nat → List (Nat × Nat) → Prop
  | nil (a) : Contiguous a a []
  | cons {a m b l} : a < m → Contiguous m b l → Contiguous a b ((a, m) :: l)

theorem genEvenSlicesFrom_contiguous (n packs : Nat) (fuel k start : Nat) :
    Contiguous start (start + fuel * (n / packs) + (min (n % packs) (k + fuel) - min (n % packs) k))
      (genEvenSlicesFrom n packs fuel k start) := by
  induction fuel generalizing k start with
  | zero => simpa [genEvenSlicesFrom] using Contiguous.nil start
  | succ fuel ih =>
    unfold genEvenSlicesFrom
    simp only
    have key : ∀ t : Nat, t = n / packs + (if k < n % packs then 1 else 0) →
        start + (fuel + 1) * (n / packs) + (min (n % packs) (k + (fuel + 1)) - min (n % packs) k) =
        start + t + fuel * (n / packs) + (min (n % packs) (k + 1 + fuel) - min (n % packs) (k + 1)) := by
      rintro t rfl
      rw [Nat.add_mul, Nat.one_mul]
      generalize n / packs = q
      generalize n % packs = r
      have : k + (fuel + 1) = k + 1 + fuel := by omega
      rw [this]
      split <;> omega
    rw [key _ rfl]
    generalize n / packs + (if k < n % packs then 1 else 0) = t
    split
    · rename_i hpos
      exact .cons (Nat.lt_add_of_pos_right hpos) (ih (k + 1) _)
    · rename_i hpos
      have h0 : t = 0 := by omega
      rw [h0]
      exact ih (k + 1) start

/-- **C17.** The slices given to the jobs are non-empty, contiguous, in order, and cover exactly `0, …, n - 1`. -/
theorem C17_slices_partition (n packs : Nat) (hp : 1 ≤ packs) : Contiguous 0 n (genEvenSlices n packs) := by
  have h := genEvenSlicesFrom_contiguous n packs packs 0 0
  have hlt : n % packs < packs := Nat.mod_lt _ (by omega)
  have hn : 0 + packs * (n / packs) + (min (n % packs) (0 + packs) - min (n % packs) 0) = n := by
    have := Nat.div_add_mod n packs
    omega
  rw [hn] at h
  exact h

theorem pySlice_block {α : Type _} (X : List α) (a b : Nat) (hab : a ≤ b) (hb : b ≤ X.length) :
    pySlice (some (a : Int)) (some (b : Int)) 1 X = (X.drop a).take (b - a) := by
  have hst : sliceStart (X.length : Int) 1 (some (a : Int)) = a := by
    simp only [sliceStart, adjustBound]; split <;> split <;> (try split) <;> omega
  have hsp : sliceStop (X.length : Int) 1 (some (b : Int)) = b := by
    simp only [sliceStop, adjustBound]; split <;> split <;> (try split) <;> omega
  have hlen : sliceLen (a : Int) (b : Int) 1 = b - a := by
    simp only [sliceLen, Int.reduceLT, if_false, Int.ediv_one]; split <;> omega
  apply List.ext_getElem?
  intro k
  by_cases hk : k < b - a
  · rw [getElem?_pySlice _ _ _ (by omega) _ _ (by rw [hst, hsp, hlen]; exact hk), hst, List.getElem?_take,
      if_pos hk, List.getElem?_drop]
    congr 1; omega
  · have h2 := length_pySlice (some (a : Int)) (some (b : Int)) 1 (by omega) X
    rw [hst, hsp, hlen] at h2
    rw [List.getElem?_eq_none (by omega), List.getElem?_eq_none (by simp; omega)]

theorem contiguous_le {a b : Nat} {l : List (Nat × Nat)} (h : Contiguous a b l) : a ≤ b := by
  induction h with
  | nil => exact le_refl _
  | cons h1 _ ih => omega

theorem drop_eq_take_append_drop {α : Type _} (X : List α) (a m : Nat) (h : a ≤ m) :
    X.drop a = (X.drop a).take (m - a) ++ X.drop m := by
  conv_lhs => rw [← List.take_append_drop (m - a) (X.drop a)]
  rw [List.drop_drop]
  congr 2; omega

theorem contiguous_concat {α β : Type _} (F : List α → List β) (hF : ∀ A B, F (A ++ B) = F A ++ F B)
    (X : List α) {a b : Nat} {l : List (Nat × Nat)} (h : Contiguous a b l) (hb : b = X.length) :
    (l.map fun s => F (pySlice (some (s.1 : Int)) (some (s.2 : Int)) 1 X)).flatten = F (X.drop a) := by
  induction h with
  | nil a =>
    subst hb
    have h0 : F [] = [] := by
      have := congrArg List.length (hF [] [])
      simp only [List.append_nil, List.length_append] at this
      exact List.length_eq_zero_iff.1 (by omega)
    simp [h0]
  | @cons a m b l h1 h2 ih =>
    have hm := contiguous_le h2
    rw [List.map_cons, List.flatten_cons, ih hb, pySlice_block X a m (by omega) (by omega), ← hF,
      ← drop_eq_take_append_drop X a m (by omega)]

/-- **C17.** If the batch function treats samples independently of how they are batched (`F (A ++ B) = F A ++ F B`), then the result with
any number of jobs is the result of the batch function on the whole collection. -/
theorem C17_njobs_independent {α β : Type _} (F : List α → List β) (hF : ∀ A B, F (A ++ B) = F A ++ F B)
    (nJobs : Nat) (hn : 1 ≤ nJobs) (X : List α) : chunked F nJobs X = F X := by
  unfold chunked
  rw [contiguous_concat F hF X (C17_slices_partition X.length nJobs hn) rfl, List.drop_zero]

/-- **C17** for per-sample functions: any two numbers of jobs give the same result, sample `i` is the image of sample `i`. -/
theorem C17_njobs_map {α β : Type _} (g : α → β) (nJobs : Nat) (hn : 1 ≤ nJobs) (X : List α) :
    chunked (List.map g) nJobs X = X.map g :=
  C17_njobs_independent _ (fun A B => by simp) nJobs hn X

theorem contiguous_concatM {α β : Type _} (F : List α → PyM (List β)) (hF : ∀ A B, F (A ++ B) = (do
      let a ← F A; let b ← F B; pure (a ++ b))) (h0 : F [] = .ok [])
    (X : List α) {a b : Nat} {l : List (Nat × Nat)} (h : Contiguous a b l) (hb : b = X.length) :
    (do let r ← l.mapM fun s => F (pySlice (some (s.1 : Int)) (some (s.2 : Int)) 1 X); pure r.flatten) = F (X.drop a) := by
  induction h with
  | nil a => subst hb; simp [h0]
  | @cons a m b l h1 h2 ih =>
    have hm := contiguous_le h2
    rw [List.mapM_cons, pySlice_block X a m (by omega) (by omega)]
    conv_rhs => rw [drop_eq_take_append_drop X a m (by omega), hF]
    rw [← ih hb]
    cases h3 : F ((X.drop a).take (m - a)) with
    | error e => simp
    | ok r =>
      cases h4 : l.mapM fun s => F (pySlice (some (s.1 : Int)) (some (s.2 : Int)) 1 X) with
      | error e => simp
      | ok r' => simp

/-- **C17** for batch functions that may raise. -/
theorem C17_njobs_independent_raising {α β : Type _} (F : List α → PyM (List β)) (h0 : F [] = .ok [])
    (hF : ∀ A B, F (A ++ B) = (do let a ← F A; let b ← F B; pure (a ++ b)))
    (nJobs : Nat) (hn : 1 ≤ nJobs) (X : List α) : chunkedM F nJobs X = F X := by
  unfold chunkedM
  rw [contiguous_concatM F hF h0 X (C17_slices_partition X.length nJobs hn) rfl, List.drop_zero]

theorem runSchedule_get {β : Type _} (tasks : List (Unit → β)) (order : List Nat) (slots : List (Option β))
    (hl : slots.length = tasks.length) :
    let r := order.foldl (fun slots k => slots.set k ((tasks[k]?).map fun t => t ())) slots
    r.length = tasks.length ∧ ∀ i, i < tasks.length →
      r[i]? = if i ∈ order then (tasks[i]?).map (fun t => some (t ())) else slots[i]? := by
  induction order generalizing slots with
  | nil => simp [hl]
  | cons k order ih =>
    simp only [List.foldl_cons]
    obtain ⟨h1, h2⟩ := ih (slots.set k ((tasks[k]?).map fun t => t ())) (by simpa using hl)
    refine ⟨h1, ?_⟩
    intro i hi
    rw [h2 i hi]
    by_cases hio : i ∈ order
    · simp [hio]
    · simp only [hio, if_false]
      by_cases hik : k = i
      · subst hik
        simp [hl, hi]
      · rw [List.getElem?_set_ne hik]
        have : ¬ i = k := fun h => hik h.symm
        simp [this, hio]

/-- **C17** (schedules). Whatever the order in which the tasks complete (every task completing at least once), the collected results are
the results of the tasks in submission order. -/
theorem C17_schedule_independent {β : Type _} (tasks : List (Unit → β)) (order : List Nat)
    (hall : ∀ i, i < tasks.length → i ∈ order) :
    runSchedule tasks order = tasks.map fun t => some (t ()) := by
  obtain ⟨h1, h2⟩ := runSchedule_get tasks order (List.replicate tasks.length none) (by simp)
  apply List.ext_getElem?
  intro i
  by_cases hi : i < tasks.length
  · have := h2 i hi
    unfold runSchedule
    rw [this, if_pos (hall i hi), List.getElem?_map]
  · rw [List.getElem?_eq_none (by unfold runSchedule; omega), List.getElem?_eq_none (by simp; omega)]

example : genEvenSlices 10 4 = [(0, 3), (3, 6), (6, 8), (8, 10)] ∧ genEvenSlices 2 5 = [(0, 1), (1, 2)] := by decide
example : chunked (List.map (· * 2)) 4 (List.range 10) = (List.range 10).map (· * 2) := by decide
example : runSchedule [fun _ => 1, fun _ => 2, fun _ => 3] [2, 0, 1] = [some 1, some 2, some 3] := by decide

end Gtda.Props
