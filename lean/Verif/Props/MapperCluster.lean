import Verif.Model.MapperCluster
import Verif.Spec.MapperCluster
import Verif.Props.Parallel
import Mathlib.Tactic.FieldSimp
import Mathlib.Tactic.Positivity
import Mathlib.Data.Rat.Floor

set_option autoImplicit false
set_option linter.unusedSectionVars false

/-!
# Clustering in Mapper: C45 (`ParallelClustering`), C49 (`FirstSimpleGap`), C50 (`FirstHistogramGap`)
-/

namespace Gtda.Props
open Gtda.Py Gtda.Mapper Gtda.Parallel Gtda.Spec

theorem fancy_picks {α : Type} (l : List α) (S : List Nat) (h : ∀ i ∈ S, i < l.length) : ∃ r, fancy l (S.map Int.ofNat) = .ok r ∧ Picks l S r := by
  induction S with
  | nil => exact ⟨[], rfl, rfl⟩
  | cons a t ih =>
    obtain ⟨r, h1, h2⟩ := ih fun i hi => h i (by simp [hi])
    have ha : a < l.length := h a (by simp)
    refine ⟨l[a] :: r, ?_, ?_⟩
    · have : npIndex l (Int.ofNat a) = .ok l[a] := npIndex_nat l a ha
      unfold fancy at h1 ⊢
      rw [List.map_cons, List.mapM_cons, this, ok_bind, h1]; rfl
    · unfold Picks at h2 ⊢
      simp [h2, ha]

theorem membersOf_lt (col : List Bool) : ∀ i ∈ membersOf col, i < col.length := by
  intro i hi; unfold membersOf at hi; simp at hi; exact hi.1

theorem membersOf_nodup (col : List Bool) : (membersOf col).Nodup := List.nodup_range.filter _

theorem mem_membersOf (col : List Bool) (i : Nat) : i ∈ membersOf col ↔ col[i]? = some true := by
  unfold membersOf
  simp only [List.mem_filter, List.mem_range, decide_eq_true_eq, and_iff_right_iff_imp]
  intro h
  exact (List.getElem?_eq_some_iff.1 h).1

theorem portion_ok {K : Type} (pre : Bool) (X : List (List K)) (S : List Nat) (hS : ∀ i ∈ S, i < X.length)
    (hsq : pre = true → ∀ r ∈ X, r.length = X.length) : ∃ sub, portion pre X S = .ok sub ∧ IsPortion pre X S sub := by
  obtain ⟨rows, h1, h2⟩ := fancy_picks X S hS
  unfold portion
  rw [h1, ok_bind]
  cases pre with
  | false => exact ⟨rows, rfl, by simpa [IsPortion] using h2⟩
  | true =>
    have hrows : ∀ r ∈ rows, r.length = X.length := by
      intro r hr
      have : some r ∈ rows.map some := List.mem_map_of_mem hr
      rw [h2] at this
      obtain ⟨i, -, hi⟩ := List.mem_map.1 this
      exact hsq rfl r (List.mem_of_getElem? hi)
    have : ∃ sub, (rows.mapM fun r => fancy r (S.map Int.ofNat)) = .ok sub ∧ List.Forall₂ (fun row r => Picks row S r) rows sub := by
      clear h1 h2
      induction rows with
      | nil => exact ⟨[], rfl, .nil⟩
      | cons a t ih =>
        obtain ⟨sub, h1, h2⟩ := ih fun r hr => hrows r (by simp [hr])
        obtain ⟨r, h3, h4⟩ := fancy_picks a S (by rw [hrows a (by simp)]; exact hS)
        refine ⟨r :: sub, ?_, .cons h4 h2⟩
        rw [List.mapM_cons, h3, ok_bind, h1]; rfl
    obtain ⟨sub, h3, h4⟩ := this
    exact ⟨sub, by simpa using h3, by simp only [IsPortion, if_true]; exact ⟨rows, h2, h4⟩⟩

theorem weightsFor_ok {K W C : Type} (c : Clusterer K W C) (w : Option (List W)) (S : List Nat) (hw : ∀ ws, w = some ws → ∀ i ∈ S, i < ws.length) :
    ∃ v, weightsFor c w S = .ok v ∧ IsWeights c.takesWeights w S v := by
  cases w with
  | none => exact ⟨none, rfl, by simp [IsWeights]⟩
  | some ws =>
    cases ht : c.takesWeights with
    | false => exact ⟨none, by simp [weightsFor, ht], by simp [IsWeights]⟩
    | true =>
      obtain ⟨r, h1, h2⟩ := fancy_picks ws S (hw ws rfl)
      exact ⟨some r, by simp [weightsFor, ht, h1], r, rfl, h2⟩

theorem foldl_modify_getElem? {C : Type} (k : Nat) (ps : List (Nat × C)) (labels : List (List (Nat × C))) (i : Nat) :
    (ps.foldl (fun acc p => acc.modify p.1 (· ++ [(k, p.2)])) labels)[i]? =
      (labels[i]?).map (· ++ (ps.filter fun p => p.1 = i).map fun p => (k, p.2)) := by
  induction ps generalizing labels with
  | nil => simp
  | cons p t ih =>
    rw [List.foldl_cons, ih, List.getElem?_modify]
    cases labels[i]? with
    | none => simp
    | some x =>
      by_cases h : p.1 = i
      · simp [h]
      · simp [h]

theorem addLabels_ok {C : Type} (k : Nat) (labels : List (List (Nat × C))) (S : List Nat) (ls : List C) (h : ls.length = S.length) :
    ∃ L, addLabels k labels (S, ls) = .ok L ∧ L.length = labels.length ∧
      ∀ i : Nat, L[i]? = (labels[i]?).map (· ++ ((S.zip ls).filter fun p => p.1 = i).map fun p => (k, p.2)) := by
  have hl : ∀ (ps : List (Nat × C)) (acc : List (List (Nat × C))), (ps.foldl (fun acc p => acc.modify p.1 (· ++ [(k, p.2)])) acc).length = acc.length := by
    intro ps
    induction ps with
    | nil => intro acc; rfl
    | cons p t ih => intro acc; rw [List.foldl_cons, ih]; simp
  refine ⟨_, by unfold addLabels; rw [if_pos (by exact h)], hl _ _, fun i => ?_⟩
  exact foldl_modify_getElem? k _ _ i

theorem collectLabels_ok {C : Type} (ts : List (List Nat × List C)) (h : ∀ t ∈ ts, t.2.length = t.1.length) (k : Nat) (labels : List (List (Nat × C))) :
    ∃ L, collectLabels k ts labels = .ok L ∧ L.length = labels.length ∧
      ∀ i : Nat, L[i]? = (labels[i]?).map (· ++ (ts.zipIdx k).flatMap fun q => ((q.1.1.zip q.1.2).filter fun p => p.1 = i).map fun p => (q.2, p.2)) := by
  induction ts generalizing k labels with
  | nil => exact ⟨labels, rfl, rfl, fun i => by simp⟩
  | cons t ts ih =>
    obtain ⟨L1, h1, h2, h3⟩ := addLabels_ok k labels t.1 t.2 (h t (by simp))
    obtain ⟨L2, h4, h5, h6⟩ := ih (fun t ht => h t (by simp [ht])) (k + 1) L1
    refine ⟨L2, ?_, by omega, fun i => ?_⟩
    · unfold collectLabels
      rw [show addLabels k labels t = .ok L1 from h1, ok_bind, h4]
    · rw [h6, h3, List.zipIdx_cons, List.flatMap_cons]
      cases labels[i]? <;> simp

theorem scheduled_ok {β : Type} (tasks : List (Unit → PyM β)) (order : List Nat) (hall : ∀ i, i < tasks.length → i ∈ order) :
    scheduled tasks order = tasks.mapM fun t => t () := by
  unfold scheduled
  rw [C17_schedule_independent tasks order hall]
  generalize tasks = l
  induction l with
  | nil => rfl
  | cons a t ih => rw [List.map_cons, List.mapM_cons, List.mapM_cons, ih]

theorem filter_zip_fst {C : Type} (S : List Nat) (hS : S.Nodup) (ls : List C) (h : ls.length = S.length) (i : Nat) (k : Nat) :
    (((S.zip ls).filter fun p => p.1 = i).map fun p => (k, p.2)).map Prod.fst = if i ∈ S then [k] else [] := by
  induction S generalizing ls with
  | nil => simp
  | cons a t ih =>
    cases ls with
    | nil => simp at h
    | cons l ls =>
      have hnd := List.nodup_cons.1 hS
      have := ih hnd.2 ls (by simpa using h)
      rw [List.zip_cons_cons, List.filter_cons]
      by_cases ha : a = i
      · subst ha
        simp only [decide_true, if_true, List.map_cons, this, hnd.1, if_false, List.mem_cons, true_or]
      · have hia : ¬ i = a := fun e => ha e.symm
        simp only [ha, decide_false, Bool.false_eq_true, if_false, this, List.mem_cons, hia, false_or]

/-- **C45.** Let the clusterer be a `ClusterMixin` with at most one of the parameters `metric`, `affinity` (`pre`: it is set to `'precomputed'`). Let every parallel task be
run (in any order, possibly several times) and let the clusterer return one label for every sample of each pullback set, `lab k` for set `k`. Then `labels_[i]` lists one
pair (set number, cluster label of sample `i` in this set) for each set containing sample `i`, with increasing set number, and nothing else. -/
theorem C45_labels {K W C : Type} (c : Clusterer K W C) (pre : Bool) (hmix : c.isMixin = true) (hmet : c.metrics = [pre] ∨ (c.metrics = [] ∧ pre = false))
    (X : List (List K)) (cols : List (List Bool)) (w : Option (List W)) (hX : X ≠ []) (hrow : X.headD [] ≠ []) (hsq : pre = true → ∀ r ∈ X, r.length = X.length)
    (hcols : cols ≠ []) (hlen : ∀ col ∈ cols, col.length = X.length) (hw : ∀ ws, w = some ws → ws.length = X.length)
    (order : List Nat) (horder : ∀ k, k < cols.length → k ∈ order) (lab : Nat → List C)
    (hlab : ∀ (k : Nat) col sub v, cols[k]? = some col → IsPortion pre X (membersOf col) sub → IsWeights c.takesWeights w (membersOf col) v →
      c.labels sub v = .ok (lab k) ∧ (lab k).length = (membersOf col).length) :
    ∃ L, parallelClusteringFit c order X cols w = .ok L ∧ L.length = X.length ∧
      ∀ i, i < X.length → ∃ pairs, L[i]? = some pairs ∧
        pairs.map Prod.fst = (List.range cols.length).filter (fun k => (cols.getD k [])[i]? = some true) ∧
        ∀ (k : Nat) (l : C), (k, l) ∈ pairs ↔ ∃ (col : List Bool) (j : Nat), cols[k]? = some col ∧ (membersOf col)[j]? = some i ∧ (lab k)[j]? = some l := by
  have hval : validateClusterer c = .ok pre := by
    unfold validateClusterer
    rw [hmix, if_pos rfl]
    rcases hmet with h | ⟨h, h'⟩
    · rw [h]
    · rw [h, h']
  obtain ⟨x0, X', rfl⟩ : ∃ x0 X', X = x0 :: X' := by
    cases X with
    | nil => exact absurd rfl hX
    | cons a t => exact ⟨a, t, rfl⟩
  obtain ⟨c0, cols', rfl⟩ : ∃ c0 cols', cols = c0 :: cols' := by
    cases cols with
    | nil => exact absurd rfl hcols
    | cons a t => exact ⟨a, t, rfl⟩
  generalize hXe : x0 :: X' = X at *
  generalize hCe : c0 :: cols' = cols at *
  -- the tasks
  have htask : ∀ (k : Nat) col, cols[k]? = some col → labelsSingle c pre X w (flatnonzero col) = .ok (membersOf col, lab k) := by
    intro k col hk
    have hmem : col ∈ cols := List.mem_of_getElem? hk
    have hlt : ∀ i ∈ membersOf col, i < X.length := fun i hi => by rw [← hlen col hmem]; exact membersOf_lt col i hi
    obtain ⟨sub, h1, h2⟩ := portion_ok pre X (membersOf col) hlt hsq
    obtain ⟨v, h3, h4⟩ := weightsFor_ok c w (membersOf col) fun ws hws i hi => by rw [hw ws hws]; exact hlt i hi
    change labelsSingle c pre X w (membersOf col) = _
    unfold labelsSingle
    rw [h1, ok_bind, h3, ok_bind, (hlab k col sub v hk h2 h4).1]; rfl
  have hsched : scheduled (cols.map fun col (_ : Unit) => labelsSingle c pre X w (flatnonzero col)) order =
      .ok ((cols.zipIdx).map fun q => (membersOf q.1, lab q.2)) := by
    rw [scheduled_ok _ _ (by simpa using horder), List.mapM_map]
    have : ∀ (cs : List (List Bool)) (n : Nat), (∀ (k : Nat) col, cs[k]? = some col → labelsSingle c pre X w (flatnonzero col) = .ok (membersOf col, lab (n + k))) →
        (cs.mapM fun col => labelsSingle c pre X w (flatnonzero col)) = .ok ((cs.zipIdx n).map fun q => (membersOf q.1, lab q.2)) := by
      intro cs
      induction cs with
      | nil => intro n _; rfl
      | cons a t ih =>
        intro n h
        have ha := h 0 a rfl
        rw [List.mapM_cons, ha, ok_bind, ih (n + 1) (fun k col hk => by
          have := h (k + 1) col (by simpa using hk)
          rw [this]; congr 3; omega)]
        rfl
    have := this cols 0 (by simpa using htask)
    exact this
  obtain ⟨L, hL1, hL2, hL3⟩ := collectLabels_ok ((cols.zipIdx).map fun q => (membersOf q.1, lab q.2)) (by
    intro t ht
    obtain ⟨q, hq, rfl⟩ := List.mem_map.1 ht
    have hk : cols[q.2]? = some q.1 := by
      have := List.mk_mem_zipIdx_iff_getElem?.1 (show (q.1, q.2) ∈ cols.zipIdx from hq); exact this
    have hmem : q.1 ∈ cols := List.mem_of_getElem? hk
    have hlt : ∀ i ∈ membersOf q.1, i < X.length := fun i hi => by rw [← hlen _ hmem]; exact membersOf_lt _ i hi
    obtain ⟨sub, h1, h2⟩ := portion_ok pre X (membersOf q.1) hlt hsq
    obtain ⟨v, h3, h4⟩ := weightsFor_ok c w (membersOf q.1) fun ws hws i hi => by rw [hw ws hws]; exact hlt i hi
    exact (hlab q.2 q.1 sub v hk h2 h4).2) 0 (List.replicate X.length [])
  have hlabl : ∀ (k : Nat) col, cols[k]? = some col → (lab k).length = (membersOf col).length := by
    intro k col hk
    have hmem : col ∈ cols := List.mem_of_getElem? hk
    have hlt : ∀ i ∈ membersOf col, i < X.length := fun i hi => by rw [← hlen col hmem]; exact membersOf_lt col i hi
    obtain ⟨sub, h1, h2⟩ := portion_ok pre X (membersOf col) hlt hsq
    obtain ⟨v, h3, h4⟩ := weightsFor_ok c w (membersOf col) fun ws hws i hi => by rw [hw ws hws]; exact hlt i hi
    exact (hlab k col sub v hk h2 h4).2
  refine ⟨L, ?_, by simpa using hL2, ?_⟩
  · unfold parallelClusteringFit
    have e1 : ¬ (X.length = 0 ∨ (X.headD []).length = 0) := by
      rintro (h | h)
      · rw [← hXe] at h; simp at h
      · exact hrow (List.length_eq_zero_iff.1 h)
    have hc0 : (cols.headD []).length = X.length := by
      rw [← hCe]; exact hlen c0 (by rw [← hCe]; simp)
    have e2 : ¬ (cols.length = 0 ∨ (cols.headD []).length = 0) := by
      rintro (h | h)
      · rw [← hCe] at h; simp at h
      · rw [hc0] at h; exact e1 (Or.inl h)
    rw [if_neg e1, if_neg e2, if_neg (by rw [hc0]; simp), hval, ok_bind, hsched, ok_bind, hL1]
  · intro i hi
    have hrep : (List.replicate X.length ([] : List (Nat × C)))[i]? = some [] := by simp [hi]
    refine ⟨_, by rw [hL3, hrep]; rfl, ?_, ?_⟩
    · beta_reduce
      rw [List.nil_append, List.map_flatMap]
      have hz : (((cols.zipIdx).map fun q => (membersOf q.1, lab q.2)).zipIdx 0) = (cols.zipIdx).map fun q => ((membersOf q.1, lab q.2), q.2) := by
        apply List.ext_getElem?
        intro k
        simp only [List.getElem?_zipIdx, List.getElem?_map, Option.map_map]
        cases cols[k]? <;> simp
      rw [hz, List.flatMap_map]
      have h1 : ((cols.zipIdx).flatMap fun q => (((membersOf q.1).zip (lab q.2)).filter fun p => p.1 = i).map (fun p => (q.2, p.2)) |>.map Prod.fst) =
          (cols.zipIdx).flatMap fun q => if (cols.getD q.2 [])[i]? = some true then [q.2] else [] := by
        apply List.flatMap_congr
        intro q hq
        have hk : cols[q.2]? = some q.1 := List.mk_mem_zipIdx_iff_getElem?.1 (show (q.1, q.2) ∈ cols.zipIdx from hq)
        rw [filter_zip_fst (membersOf q.1) (membersOf_nodup _) (lab q.2) (hlabl q.2 q.1 hk) i q.2, List.getD_eq_getElem?_getD, hk, Option.getD_some]
        simp only [mem_membersOf]
      rw [h1]
      have h2 : (cols.zipIdx).flatMap (fun q => if (cols.getD q.2 [])[i]? = some true then [q.2] else []) =
          ((cols.zipIdx).map Prod.snd).flatMap fun k => if (cols.getD k [])[i]? = some true then [k] else [] := by
        rw [List.flatMap_map]
      rw [h2, List.zipIdx_map_snd, ← List.range_eq_range']
      generalize List.range cols.length = R
      induction R with
      | nil => rfl
      | cons a t ih =>
        rw [List.flatMap_cons, ih, List.filter_cons]
        by_cases h : (cols.getD a [])[i]? = some true
        · simp only [h, if_true, decide_true, List.singleton_append]
        · simp only [h, if_false, decide_false, List.nil_append, Bool.false_eq_true]
    · intro k l
      beta_reduce
      rw [List.nil_append, List.mem_flatMap]
      constructor
      · rintro ⟨q, hq, hm⟩
        obtain ⟨p, hp, hpe⟩ := List.mem_map.1 hm
        have hq' := List.mk_mem_zipIdx_iff_getElem?.1 (show (q.1, q.2) ∈ _ from hq)
        rw [List.getElem?_map, Option.map_eq_some_iff] at hq'
        obtain ⟨⟨col, k'⟩, hck, hqe⟩ := hq'
        rw [List.getElem?_zipIdx, Option.map_eq_some_iff] at hck
        obtain ⟨col', hcol, he⟩ := hck
        simp only [Prod.mk.injEq, Nat.zero_add] at he
        obtain ⟨rfl, rfl⟩ := he
        simp only [Prod.mk.injEq] at hpe
        obtain ⟨rfl, rfl⟩ := hpe
        obtain ⟨hpz, hpi⟩ := List.mem_filter.1 hp
        obtain ⟨j, hj⟩ := List.mem_iff_getElem?.1 hpz
        rw [← hqe, List.getElem?_zip_eq_some] at hj
        refine ⟨col', j, hcol, ?_, hj.2⟩
        rw [hj.1]; congr 1; simpa using hpi
      · rintro ⟨col, j, hk, hj, hl⟩
        refine ⟨((membersOf col, lab k), k), ?_, ?_⟩
        · rw [List.mk_mem_zipIdx_iff_getElem?, List.getElem?_map, List.getElem?_zipIdx, hk]; simp
        · refine List.mem_map.2 ⟨(i, l), ?_, rfl⟩
          rw [List.mem_filter]
          refine ⟨List.mem_iff_getElem?.2 ⟨j, ?_⟩, by simp⟩
          rw [List.getElem?_zip_eq_some]; exact ⟨hj, hl⟩

/-- A clusterer for examples: rows are labelled by their first entry. -/
def exClusterer : Clusterer Nat Nat Nat := ⟨true, [false], false, fun sub _ => .ok (sub.map fun r => r.headD 0)⟩

/-- Non-vacuity of `C45_labels`: three samples, two overlapping sets, tasks executed in reverse. -/
example : parallelClusteringFit exClusterer [1, 0] [[5], [6], [7]] [[true, true, false], [false, true, true]] none = .ok [[(0, 5)], [(0, 6), (1, 6)], [(1, 7)]] := by decide +kernel

example : ∀ (k : Nat) col sub v, [[true, true, false], [false, true, true]][k]? = some col → IsPortion false [[5], [6], [7]] (membersOf col) sub →
    IsWeights exClusterer.takesWeights none (membersOf col) v →
    exClusterer.labels sub v = .ok (([[5, 6], [6, 7]] : List (List Nat)).getD k []) ∧ (([[5, 6], [6, 7]] : List (List Nat)).getD k []).length = (membersOf col).length := by
  intro k col sub v hk hp _
  have hinj : ∀ a b : List (List Nat), a.map some = b.map some → a = b := fun a b h => (List.map_injective_iff.2 (Option.some_injective _)) h
  match k with
  | 0 =>
    obtain rfl : [true, true, false] = col := by simpa using hk
    have : sub = [[5], [6]] := hinj _ _ (by simp only [IsPortion] at hp; exact hp)
    subst this; exact ⟨rfl, by decide⟩
  | 1 =>
    obtain rfl : [false, true, true] = col := by simpa using hk
    have : sub = [[6], [7]] := hinj _ _ (by simp only [IsPortion] at hp; exact hp)
    subst this; exact ⟨rfl, by decide⟩
  | k + 2 => simp at hk

/-- **C45, clusterers with both parameters.** A clusterer whose constructor has both parameters `metric` and `affinity` is always rejected, whatever their values (the error
message says that both are set to `'precomputed'`). -/
theorem C45_two_metric_parameters {K W C : Type} (c : Clusterer K W C) (hmix : c.isMixin = true) (a b : Bool) (hm : c.metrics = [a, b])
    (X : List (List K)) (cols : List (List Bool)) (w : Option (List W)) (order : List Nat) (hX : X ≠ []) (hrow : X.headD [] ≠ [])
    (hcols : cols ≠ []) (hlen : ∀ col ∈ cols, col.length = X.length) :
    parallelClusteringFit c order X cols w = .error .notImplemented := by
  unfold parallelClusteringFit
  have hX0 : X.length ≠ 0 := fun h => hX (List.length_eq_zero_iff.1 h)
  have hc0 : (cols.headD []).length = X.length := by
    cases cols with
    | nil => exact absurd rfl hcols
    | cons a t => exact hlen a (by simp)
  have e1 : ¬ (X.length = 0 ∨ (X.headD []).length = 0) := by
    rintro (h | h)
    · exact hX0 h
    · exact hrow (List.length_eq_zero_iff.1 h)
  have e2 : ¬ (cols.length = 0 ∨ (cols.headD []).length = 0) := by
    rintro (h | h)
    · exact hcols (List.length_eq_zero_iff.1 h)
    · omega
  rw [if_neg e1, if_neg e2, if_neg (by rw [hc0]; simp)]
  unfold validateClusterer
  rw [hmix, if_pos rfl, hm]; rfl

example : parallelClusteringFit { exClusterer with metrics := [false, false] } [0] [[5]] [[true]] none = .error .notImplemented := by decide +kernel

end Gtda.Props
