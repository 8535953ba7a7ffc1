import Verif.Model.TransitionGeodesic
import Verif.Spec.TransitionGeodesic
import Verif.Props.GraphSymmetry
import Mathlib.Algebra.BigOperators.Group.Finset.Basic
import Mathlib.Algebra.BigOperators.Ring.Finset
import Mathlib.Tactic.IntervalCases

set_option autoImplicit false
set_option linter.unusedSectionVars false

/-!
# C153: transition graphs as trajectories, and their geodesic distances
-/

namespace Gtda.Props
open Gtda.Py Gtda.Graphs Gtda.Spec

section
variable {K : Type} [Field K] [LinearOrder K] [IsStrictOrderedRing K]

theorem Transit.edge (A : List (List Nat)) (i j : Nat) (w : K) :
    DocEdge (storedMatrix A) i j w ↔ i < A.length ∧ j < A.length ∧ (A.getD i []).getD j 0 ≠ 0 ∧ w = (((A.getD i []).getD j 0 : Nat) : K) := by
  unfold storedMatrix DocEdge
  simp only [List.mem_flatMap, List.mem_filterMap, List.mem_range]
  constructor
  · rintro ⟨a, ha, b, hb, h⟩
    split at h
    · cases h
    · rename_i hne
      simp only [Option.some.injEq, Prod.mk.injEq] at h
      obtain ⟨⟨rfl, rfl⟩, rfl⟩ := h
      exact ⟨ha, hb, hne, rfl⟩
  · rintro ⟨h1, h2, h3, rfl⟩
    exact ⟨i, h1, j, h2, by rw [if_neg h3]⟩

theorem Transit.wellFormed (A : List (List Nat)) : WellFormed (storedMatrix A : GraphInput K) := by
  constructor
  · intro e he
    obtain ⟨⟨i, j⟩, w⟩ := e
    obtain ⟨h1, h2, -⟩ := (Transit.edge A i j w).1 he
    exact ⟨h1, h2⟩
  · rw [List.map_flatMap, List.nodup_flatMap]
    constructor
    · intro i _
      rw [List.map_filterMap]
      have e : (fun j => Option.map (fun e : (Nat × Nat) × K => e.1) (if (A.getD i []).getD j 0 = 0 then none else some ((i, j), (((A.getD i []).getD j 0 : Nat) : K)))) =
          fun j => if (A.getD i []).getD j 0 = 0 then none else some (i, j) := by
        funext j
        split <;> rfl
      rw [e]
      refine List.nodup_range.filterMap ?_
      intro a b c hc hc'
      split at hc
      · cases hc
      · split at hc'
        · cases hc'
        · cases hc
          simp only [Option.mem_def, Option.some.injEq, Prod.mk.injEq] at hc'
          exact hc'.2.symm
    · refine List.nodup_range.imp ?_
      intro a b hab x hx hy
      simp only [List.mem_map, List.mem_filterMap] at hx hy
      obtain ⟨e, ⟨j, -, h⟩, rfl⟩ := hx
      obtain ⟨e', ⟨j', -, h'⟩, h2⟩ := hy
      split at h
      · cases h
      · split at h'
        · cases h'
        · cases h
          cases h'
          simp only [Prod.mk.injEq] at h2
          exact hab h2.1.symm

end

section
variable {K C S : Type} [Field K] [LinearOrder K] [IsStrictOrderedRing K] [LinearOrder S]

theorem Transit.nat_walk {E : Nat → Nat → K → Prop} (hE : ∀ i j w, E i j w → w = 1) {i j : Nat} {l : K} (hw : Walk E i j l) : ∃ m : Nat, l = m ∧ (m = 0 → i = j) ∧ (m = 1 → E i j 1) := by
  induction hw with
  | nil i => exact ⟨0, by simp, fun _ => rfl, fun h => by omega⟩
  | cons i k j w l h1 _ ih =>
    obtain ⟨m, hm, h0, -⟩ := ih
    have e := hE i k w h1
    subst e
    refine ⟨m + 1, by rw [hm]; push_cast; ring, fun h => by omega, fun h => ?_⟩
    rw [← h0 (by omega)]
    exact h1

theorem Transit.changes_succ (Y : List S) (s t : Nat) (h : s < t) : changes Y s t = (if Y[s]? ≠ Y[s + 1]? then 1 else 0) + changes Y (s + 1) t := by
  unfold changes
  obtain ⟨m, hm⟩ : ∃ m, t - s = m + 1 := ⟨t - s - 1, by omega⟩
  rw [hm, List.range'_succ, List.countP_cons, show t - (s + 1) = m by omega]
  split_ifs with h1 h2 h2 <;> simp_all <;> omega

/-- **C153, number of transitions.** The vertices are the states, in increasing order. With `unweighted=True`, distances are whole numbers or infinite; the distance is 1 exactly if there is a transition (in either
direction, unless `directed=True`), and from a state at one time to the state at a later time it is at most the number of changes in between. -/
theorem C153_transitions (engine : Engine K) (hE : Correct engine) (p : GeodesicParams) (hu : p.unweighted = true) (func : List C → S) (X : List (List C)) :
    ∃ (states : List S) (out : Nat → Nat → WithTop K), states.Pairwise (· < ·) ∧ (∀ x, x ∈ states ↔ x ∈ X.map func) ∧ transitionGeodesic engine p func X = .ok (states.length, out) ∧
      ∀ (i j : Nat) (a b : S), states[i]? = some a → states[j]? = some b →
        (out i j = ⊤ ∨ ∃ m : Nat, out i j = ((m : K) : WithTop K)) ∧ (out i j = ((0 : K) : WithTop K) ↔ i = j) ∧
        (out i j = ((1 : K) : WithTop K) ↔ i ≠ j ∧ ((∃ t : Nat, (X.map func)[t]? = some a ∧ (X.map func)[t + 1]? = some b) ∨
          p.directed = false ∧ ∃ t : Nat, (X.map func)[t]? = some b ∧ (X.map func)[t + 1]? = some a)) ∧
        ∀ s t : Nat, s ≤ t → (X.map func)[s]? = some a → (X.map func)[t]? = some b → out i j ≤ (((changes (X.map func) s t : Nat) : K) : WithTop K) := by
  obtain ⟨states, s1, s2, s3, s4, s5⟩ := C66_transitions func X
  set A := adjacency func X with hA
  have hedge : ∀ i j (w : K), DocEdge (storedMatrix A) i j w ↔ i < A.length ∧ j < A.length ∧ (A.getD i []).getD j 0 ≠ 0 ∧ w = (((A.getD i []).getD j 0 : Nat) : K) := Transit.edge A
  have hnd : states.Nodup := s1.imp fun h => h.ne
  obtain ⟨out, h1, h2⟩ := C142_well_defined engine hE p (storedMatrix A) (Transit.wellFormed A) fun _ i j w h => by
    rw [((hedge i j w).1 h).2.2.2]
    exact Nat.cast_nonneg _
  have hv : vertices (storedMatrix A : GraphInput K) = states.length := by
    change max A.length A.length = _
    rw [max_self, s3]
  rw [hv] at h1 h2
  have hstep : ∀ i j (w : K), Step (DocEdge (storedMatrix A)) p.directed p.unweighted i j w → w = 1 := by
    rintro i j w ⟨v, -, rfl⟩
    rw [if_pos hu]
  have hone : ∀ i j a b, states[i]? = some a → states[j]? = some b → (Step (DocEdge (storedMatrix A : GraphInput K)) p.directed p.unweighted i j 1 ↔
      i ≠ j ∧ ((∃ t : Nat, (X.map func)[t]? = some a ∧ (X.map func)[t + 1]? = some b) ∨ p.directed = false ∧ ∃ t : Nat, (X.map func)[t]? = some b ∧ (X.map func)[t + 1]? = some a)) := by
    intro i j a b hi hj
    have hil := (List.getElem?_eq_some_iff.1 hi).1
    have hjl := (List.getElem?_eq_some_iff.1 hj).1
    have e1 := (s5 i j a b hi hj).2
    have e2 := (s5 j i b a hj hi).2
    constructor
    · rintro ⟨v, hv | ⟨hd, hv⟩, -⟩
      · obtain ⟨-, -, h3, -⟩ := (hedge i j v).1 hv
        exact ⟨(e1.1 h3).1, .inl (e1.1 h3).2⟩
      · obtain ⟨-, -, h3, -⟩ := (hedge j i v).1 hv
        exact ⟨(e2.1 h3).1.symm, .inr ⟨hd, (e2.1 h3).2⟩⟩
    · rintro ⟨hij, ht | ⟨hd, ht⟩⟩
      · exact ⟨_, .inl ((hedge i j _).2 ⟨by rw [s3]; exact hil, by rw [s3]; exact hjl, e1.2 ⟨hij, ht⟩, rfl⟩), by rw [if_pos hu]⟩
      · exact ⟨_, .inr ⟨hd, (hedge j i _).2 ⟨by rw [s3]; exact hjl, by rw [s3]; exact hil, e2.2 ⟨hij.symm, ht⟩, rfl⟩⟩, by rw [if_pos hu]⟩
  refine ⟨states, out, s1, s2, h1, fun i j a b hi hj => ?_⟩
  have hil := (List.getElem?_eq_some_iff.1 hi).1
  have hjl := (List.getElem?_eq_some_iff.1 hj).1
  refine ⟨?_, ?_, ?_, ?_⟩
  · cases hx : out i j with
    | top => exact .inl rfl
    | coe x =>
      obtain ⟨m, hm, -⟩ := Transit.nat_walk hstep (((h2 i hil j hjl).2 x).1 hx).1
      exact .inr ⟨m, by rw [hm]⟩
  · rw [(h2 i hil j hjl).2]
    constructor
    · rintro ⟨hw, -⟩
      obtain ⟨m, hm, h0, -⟩ := Transit.nat_walk hstep hw
      exact h0 (by exact_mod_cast hm.symm)
    · rintro rfl
      refine ⟨.nil i, fun l hl => ?_⟩
      obtain ⟨m, rfl, -⟩ := Transit.nat_walk hstep hl
      exact Nat.cast_nonneg m
  · rw [(h2 i hil j hjl).2, ← hone i j a b hi hj]
    constructor
    · rintro ⟨hw, -⟩
      obtain ⟨m, hm, -, h1⟩ := Transit.nat_walk hstep hw
      exact h1 (by exact_mod_cast hm.symm)
    · intro hs
      refine ⟨?_, fun l hl => ?_⟩
      · have := Walk.cons i j j 1 0 hs (.nil j)
        rwa [add_zero] at this
      · obtain ⟨m, rfl, h0, -⟩ := Transit.nat_walk hstep hl
        have hij := ((hone i j a b hi hj).1 hs).1
        have : m ≠ 0 := fun e => hij (h0 e)
        have : 1 ≤ m := by omega
        exact_mod_cast this
  · have key : ∀ (m s t : Nat), t = s + m → ∀ (i j : Nat) (a b : S), states[i]? = some a → states[j]? = some b → (X.map func)[s]? = some a → (X.map func)[t]? = some b →
        Walk (Step (DocEdge (storedMatrix A : GraphInput K)) p.directed p.unweighted) i j ((changes (X.map func) s t : Nat) : K) := by
      intro m
      induction m with
      | zero =>
        intro s t ht i j a b hi hj hs htt
        obtain rfl : t = s := by omega
        rw [hs, Option.some.injEq] at htt
        subst htt
        obtain ⟨h3, h4⟩ := List.getElem?_eq_some_iff.1 hi
        obtain ⟨h5, h6⟩ := List.getElem?_eq_some_iff.1 hj
        have e : i = j := (hnd.getElem_inj_iff).1 (h4.trans h6.symm)
        subst e
        have : changes (X.map func) t t = 0 := by simp [changes]
        rw [this, Nat.cast_zero]
        exact .nil i
      | succ m ih =>
        intro s t ht i j a b hi hj hs htt
        have hlt : t < (X.map func).length := (List.getElem?_eq_some_iff.1 htt).1
        obtain ⟨c, hc⟩ : ∃ c, (X.map func)[s + 1]? = some c := ⟨_, List.getElem?_eq_getElem (by omega)⟩
        obtain ⟨k, hk⟩ := List.mem_iff_getElem?.1 ((s2 c).2 (List.mem_of_getElem? hc))
        have hrest := ih (s + 1) t (by omega) k j c b hk hj hc htt
        rw [Transit.changes_succ _ s t (by omega), hs, hc]
        by_cases hac : a = c
        · subst hac
          obtain ⟨h3, h4⟩ := List.getElem?_eq_some_iff.1 hi
          obtain ⟨h5, h6⟩ := List.getElem?_eq_some_iff.1 hk
          have e : i = k := (hnd.getElem_inj_iff).1 (h4.trans h6.symm)
          subst e
          simpa using hrest
        · have hik : i ≠ k := by
            rintro rfl
            rw [hi, Option.some.injEq] at hk
            exact hac hk
          have hs1 := (hone i k a c hi hk).2 ⟨hik, .inl ⟨s, hs, hc⟩⟩
          have := Walk.cons i k j 1 _ hs1 hrest
          rw [if_pos (by simpa using hac)]
          push_cast
          exact this
    intro s t hst hs ht
    have hw := key (t - s) s t (by omega) i j a b hi hj hs ht
    cases hx : out i j with
    | top => exact absurd ⟨_, hw⟩ ((h2 i hil j hjl).1.1 hx)
    | coe x => exact WithTop.coe_le_coe.2 ((((h2 i hil j hjl).2 x).1 hx).2 _ hw)

/-- **C153, connectedness.** Weighted or not, distances from a state at one time to the state at a later time are finite (so from the first state to all, and from all to the last), and all distances are finite unless
`directed=True`. -/
theorem C153_connected (engine : Engine K) (hE : Correct engine) (p : GeodesicParams) (func : List C → S) (X : List (List C)) :
    ∃ (states : List S) (out : Nat → Nat → WithTop K), states.Pairwise (· < ·) ∧ (∀ x, x ∈ states ↔ x ∈ X.map func) ∧ transitionGeodesic engine p func X = .ok (states.length, out) ∧
      ∀ (i j : Nat) (a b : S), states[i]? = some a → states[j]? = some b →
        (p.directed = false → out i j ≠ ⊤) ∧ ∀ s t : Nat, s ≤ t → (X.map func)[s]? = some a → (X.map func)[t]? = some b → out i j ≠ ⊤ := by
  obtain ⟨states, s1, s2, s3, s4, s5⟩ := C66_transitions func X
  set A := adjacency func X with hA
  have hedge : ∀ i j (w : K), DocEdge (storedMatrix A) i j w ↔ i < A.length ∧ j < A.length ∧ (A.getD i []).getD j 0 ≠ 0 ∧ w = (((A.getD i []).getD j 0 : Nat) : K) := Transit.edge A
  have hnd : states.Nodup := s1.imp fun h => h.ne
  obtain ⟨out, h1, h2⟩ := C142_well_defined engine hE p (storedMatrix A) (Transit.wellFormed A) fun _ i j w h => by
    rw [((hedge i j w).1 h).2.2.2]
    exact Nat.cast_nonneg _
  have hv : vertices (storedMatrix A : GraphInput K) = states.length := by
    change max A.length A.length = _
    rw [max_self, s3]
  rw [hv] at h1 h2
  have key : ∀ (m s t : Nat), t = s + m → ∀ (i j : Nat) (a b : S), states[i]? = some a → states[j]? = some b → (X.map func)[s]? = some a → (X.map func)[t]? = some b →
      ∃ l, Walk (Step (DocEdge (storedMatrix A : GraphInput K)) p.directed p.unweighted) i j l := by
    intro m
    induction m with
    | zero =>
      intro s t ht i j a b hi hj hs htt
      obtain rfl : t = s := by omega
      rw [hs, Option.some.injEq] at htt
      subst htt
      obtain ⟨h3, h4⟩ := List.getElem?_eq_some_iff.1 hi
      obtain ⟨h5, h6⟩ := List.getElem?_eq_some_iff.1 hj
      have e : i = j := (hnd.getElem_inj_iff).1 (h4.trans h6.symm)
      subst e
      exact ⟨0, .nil i⟩
    | succ m ih =>
      intro s t ht i j a b hi hj hs htt
      have hlt : t < (X.map func).length := (List.getElem?_eq_some_iff.1 htt).1
      obtain ⟨c, hc⟩ : ∃ c, (X.map func)[s + 1]? = some c := ⟨_, List.getElem?_eq_getElem (by omega)⟩
      obtain ⟨k, hk⟩ := List.mem_iff_getElem?.1 ((s2 c).2 (List.mem_of_getElem? hc))
      obtain ⟨l, hl⟩ := ih (s + 1) t (by omega) k j c b hk hj hc htt
      by_cases hac : a = c
      · subst hac
        obtain ⟨h3, h4⟩ := List.getElem?_eq_some_iff.1 hi
        obtain ⟨h5, h6⟩ := List.getElem?_eq_some_iff.1 hk
        have e : i = k := (hnd.getElem_inj_iff).1 (h4.trans h6.symm)
        subst e
        exact ⟨l, hl⟩
      · have hik : i ≠ k := by
          rintro rfl
          rw [hi, Option.some.injEq] at hk
          exact hac hk
        have h3 := (s5 i k a c hi hk).2.2 ⟨hik, s, hs, hc⟩
        refine ⟨_, Walk.cons i k j _ l ⟨_, .inl ((hedge i k _).2 ⟨?_, ?_, h3, rfl⟩), rfl⟩ hl⟩
        · rw [s3]; exact (List.getElem?_eq_some_iff.1 hi).1
        · rw [s3]; exact (List.getElem?_eq_some_iff.1 hk).1
  refine ⟨states, out, s1, s2, h1, fun i j a b hi hj => ?_⟩
  have hil := (List.getElem?_eq_some_iff.1 hi).1
  have hjl := (List.getElem?_eq_some_iff.1 hj).1
  have hlater : ∀ (i j : Nat) (a b : S), states[i]? = some a → states[j]? = some b → ∀ s t : Nat, s ≤ t → (X.map func)[s]? = some a → (X.map func)[t]? = some b →
      ∃ l, Walk (Step (DocEdge (storedMatrix A : GraphInput K)) p.directed p.unweighted) i j l := fun i j a b hi hj s t hst hs ht => key (t - s) s t (by omega) i j a b hi hj hs ht
  refine ⟨fun hdir htop => ?_, fun s t hst hs ht htop => (h2 i hil j hjl).1.1 htop (hlater i j a b hi hj s t hst hs ht)⟩
  obtain ⟨s, hs⟩ := List.mem_iff_getElem?.1 ((s2 a).1 (List.mem_of_getElem? hi))
  obtain ⟨t, ht⟩ := List.mem_iff_getElem?.1 ((s2 b).1 (List.mem_of_getElem? hj))
  apply (h2 i hil j hjl).1.1 htop
  rcases Nat.le_total s t with hst | hst
  · exact hlater i j a b hi hj s t hst hs ht
  · obtain ⟨l, hl⟩ := hlater j i b a hj hi t s hst ht hs
    refine ⟨l, walk_reverse ?_ hl⟩
    rintro u v w ⟨x, hx, rfl⟩
    refine ⟨x, ?_, rfl⟩
    rcases hx with hx | ⟨-, hx⟩
    · exact .inr ⟨hdir, hx⟩
    · exact .inl hx

end

section
variable {C S : Type} [LinearOrder S]

/-- Departures from a state and arrivals at it. -/
theorem Transit.balance (a : S) (y : S) (Y : List S) :
    ((List.range Y.length).countP fun t => decide ((y :: Y)[t]? = some a) && decide ((y :: Y)[t + 1]? ≠ some a)) + (if (y :: Y).getLast? = some a then 1 else 0) =
      ((List.range Y.length).countP fun t => decide ((y :: Y)[t]? ≠ some a) && decide ((y :: Y)[t + 1]? = some a)) + (if y = a then 1 else 0) := by
  induction Y generalizing y with
  | nil => simp
  | cons z Z ih =>
    have h := ih z
    rw [List.length_cons, List.range_succ_eq_map, List.countP_cons, List.countP_cons, List.countP_map, List.countP_map]
    have e1 : ((fun t => decide ((y :: z :: Z)[t]? = some a) && decide ((y :: z :: Z)[t + 1]? ≠ some a)) ∘ Nat.succ) = fun t => decide ((z :: Z)[t]? = some a) && decide ((z :: Z)[t + 1]? ≠ some a) := by
      funext t
      simp
    have e2 : ((fun t => decide ((y :: z :: Z)[t]? ≠ some a) && decide ((y :: z :: Z)[t + 1]? = some a)) ∘ Nat.succ) = fun t => decide ((z :: Z)[t]? ≠ some a) && decide ((z :: Z)[t + 1]? = some a) := by
      funext t
      simp
    rw [e1, e2]
    have e3 : (y :: z :: Z).getLast? = (z :: Z).getLast? := by simp [List.getLast?_cons_cons]
    rw [e3]
    revert h
    generalize (List.range Z.length).countP (fun t => decide ((z :: Z)[t]? = some a) && decide ((z :: Z)[t + 1]? ≠ some a)) = u
    generalize (List.range Z.length).countP (fun t => decide ((z :: Z)[t]? ≠ some a) && decide ((z :: Z)[t + 1]? = some a)) = v
    generalize (if (z :: Z).getLast? = some a then 1 else 0) = w
    intro h
    simp only [List.getElem?_cons_zero, Nat.zero_add, List.getElem?_cons_succ, Option.some.injEq, ne_eq]
    by_cases h1 : y = a <;> by_cases h2 : z = a <;> simp only [h1, h2, if_true, if_false, decide_true, decide_false, not_true_eq_false, not_false_eq_true, Bool.and_false, Bool.and_true, Bool.false_eq_true] at h ⊢ <;> omega

theorem Transit.count_sum (n : Nat) (p : Nat → Bool) : (List.range n).countP p = ∑ t ∈ Finset.range n, if p t = true then 1 else 0 := by
  induction n with
  | zero => simp
  | succ n ih => rw [List.range_succ, List.countP_append, Finset.sum_range_succ, ih, List.countP_singleton]

theorem Transit.sum_follow (Y states : List S) (hs : states.Nodup) (hm : ∀ x, x ∈ states ↔ x ∈ Y) (i : Nat) (a : S) (hi : states[i]? = some a) (F : Nat → Nat)
    (hF : ∀ j b, states[j]? = some b → F j = if i = j then 0 else followCount Y a b) :
    ∑ j ∈ Finset.range states.length, F j = (List.range (Y.length - 1)).countP fun t => decide (Y[t]? = some a) && decide (Y[t + 1]? ≠ some a) := by
  rw [Transit.count_sum]
  have e : ∑ j ∈ Finset.range states.length, F j =
      ∑ j ∈ Finset.range states.length, ∑ t ∈ Finset.range (Y.length - 1), if i ≠ j ∧ Y[t]? = some a ∧ Y[t + 1]? = states[j]? then 1 else 0 := by
    refine Finset.sum_congr rfl fun j hj => ?_
    rw [Finset.mem_range] at hj
    rw [hF j _ (List.getElem?_eq_getElem hj)]
    split
    · rename_i h
      symm
      refine Finset.sum_eq_zero fun t _ => if_neg fun h' => h'.1 h
    · rename_i h
      unfold followCount
      rw [Transit.count_sum]
      refine Finset.sum_congr rfl fun t _ => ?_
      simp only [Bool.and_eq_true, decide_eq_true_eq, List.getElem?_eq_getElem hj]
      exact if_congr ⟨fun h' => ⟨h, h'⟩, fun h' => h'.2⟩ rfl rfl
  rw [e, Finset.sum_comm]
  refine Finset.sum_congr rfl fun t ht => ?_
  rw [Finset.mem_range] at ht
  have hlt : t + 1 < Y.length := by omega
  obtain ⟨k, hk⟩ := List.mem_iff_getElem?.1 ((hm Y[t + 1]).2 (List.getElem_mem hlt))
  have hkl := (List.getElem?_eq_some_iff.1 hk).1
  rw [List.getElem?_eq_getElem hlt, Finset.sum_eq_single k]
  · rw [hk]
    simp only [Bool.and_eq_true, decide_eq_true_eq, ne_eq, Option.some.injEq, and_true]
    have hik : i = k ↔ Y[t + 1] = a := by
      constructor
      · rintro rfl
        rw [hi, Option.some.injEq] at hk
        exact hk.symm
      · intro h
        rw [h] at hk
        obtain ⟨h3, h4⟩ := List.getElem?_eq_some_iff.1 hi
        obtain ⟨h5, h6⟩ := List.getElem?_eq_some_iff.1 hk
        exact (hs.getElem_inj_iff).1 (h4.trans h6.symm)
    refine if_congr ⟨fun h => ⟨h.2, fun h' => h.1 (hik.2 h')⟩, fun h => ⟨fun h' => h.2 (hik.1 h'), h.1⟩⟩ rfl rfl
  · intro j hj hjk
    rw [Finset.mem_range] at hj
    refine if_neg ?_
    rintro ⟨-, -, h⟩
    rw [← hk] at h
    rw [List.getElem?_eq_getElem hkl, List.getElem?_eq_getElem hj, Option.some.injEq] at h
    exact hjk ((hs.getElem_inj_iff).1 h).symm
  · intro h
    exact absurd (Finset.mem_range.2 hkl) h

theorem Transit.sum_follow' (Y states : List S) (hs : states.Nodup) (hm : ∀ x, x ∈ states ↔ x ∈ Y) (i : Nat) (a : S) (hi : states[i]? = some a) (F : Nat → Nat)
    (hF : ∀ j b, states[j]? = some b → F j = if j = i then 0 else followCount Y b a) :
    ∑ j ∈ Finset.range states.length, F j = (List.range (Y.length - 1)).countP fun t => decide (Y[t]? ≠ some a) && decide (Y[t + 1]? = some a) := by
  rw [Transit.count_sum]
  have e : ∑ j ∈ Finset.range states.length, F j =
      ∑ j ∈ Finset.range states.length, ∑ t ∈ Finset.range (Y.length - 1), if j ≠ i ∧ Y[t]? = states[j]? ∧ Y[t + 1]? = some a then 1 else 0 := by
    refine Finset.sum_congr rfl fun j hj => ?_
    rw [Finset.mem_range] at hj
    rw [hF j _ (List.getElem?_eq_getElem hj)]
    split
    · rename_i h
      symm
      refine Finset.sum_eq_zero fun t _ => if_neg fun h' => h'.1 h
    · rename_i h
      unfold followCount
      rw [Transit.count_sum]
      refine Finset.sum_congr rfl fun t _ => ?_
      simp only [Bool.and_eq_true, decide_eq_true_eq, List.getElem?_eq_getElem hj]
      exact if_congr ⟨fun h' => ⟨h, h'⟩, fun h' => h'.2⟩ rfl rfl
  rw [e, Finset.sum_comm]
  refine Finset.sum_congr rfl fun t ht => ?_
  rw [Finset.mem_range] at ht
  have hlt : t < Y.length := by omega
  obtain ⟨k, hk⟩ := List.mem_iff_getElem?.1 ((hm Y[t]).2 (List.getElem_mem hlt))
  have hkl := (List.getElem?_eq_some_iff.1 hk).1
  rw [List.getElem?_eq_getElem hlt, Finset.sum_eq_single k]
  · rw [hk]
    simp only [Bool.and_eq_true, decide_eq_true_eq, ne_eq, Option.some.injEq, true_and]
    have hik : k = i ↔ Y[t] = a := by
      constructor
      · rintro rfl
        rw [hi, Option.some.injEq] at hk
        exact hk.symm
      · intro h
        rw [h] at hk
        obtain ⟨h3, h4⟩ := List.getElem?_eq_some_iff.1 hi
        obtain ⟨h5, h6⟩ := List.getElem?_eq_some_iff.1 hk
        exact (hs.getElem_inj_iff).1 (h6.trans h4.symm)
    exact if_congr (and_congr_left fun _ => not_congr hik) rfl rfl
  · intro j hj hjk
    rw [Finset.mem_range] at hj
    refine if_neg ?_
    rintro ⟨-, h, -⟩
    rw [← hk] at h
    rw [List.getElem?_eq_getElem hkl, List.getElem?_eq_getElem hj, Option.some.injEq] at h
    exact hjk ((hs.getElem_inj_iff).1 h).symm
  · intro h
    exact absurd (Finset.mem_range.2 hkl) h

/-- **C153, departures and arrivals.** The sum of the row of a state is the number of departures from it, the sum of its column the number of arrivals. They are equal for all states except the first and the last one
of the series (if these differ): the first has one more departure, the last one more arrival. -/
theorem C153_balance (func : List C → S) (X : List (List C)) (hX : X ≠ []) :
    ∃ states : List S, states.Pairwise (· < ·) ∧ (∀ x, x ∈ states ↔ x ∈ X.map func) ∧ (adjacency func X).length = states.length ∧ ∀ (i : Nat) (a : S), states[i]? = some a →
      (∑ j ∈ Finset.range states.length, ((adjacency func X).getD i []).getD j 0) =
        ((List.range (X.length - 1)).countP fun t => decide ((X.map func)[t]? = some a) && decide ((X.map func)[t + 1]? ≠ some a)) ∧
      (∑ j ∈ Finset.range states.length, ((adjacency func X).getD j []).getD i 0) =
        ((List.range (X.length - 1)).countP fun t => decide ((X.map func)[t]? ≠ some a) && decide ((X.map func)[t + 1]? = some a)) ∧
      (∑ j ∈ Finset.range states.length, ((adjacency func X).getD i []).getD j 0) + (if (X.map func).getLast? = some a then 1 else 0) =
        (∑ j ∈ Finset.range states.length, ((adjacency func X).getD j []).getD i 0) + (if (X.map func).head? = some a then 1 else 0) := by
  obtain ⟨states, s1, s2, s3, s4, s5⟩ := C66_transitions func X
  have hnd : states.Nodup := s1.imp fun h => h.ne
  refine ⟨states, s1, s2, s3, fun i a hi => ?_⟩
  have h1 := Transit.sum_follow (X.map func) states hnd s2 i a hi (fun j => ((adjacency func X).getD i []).getD j 0) fun j b hj => (s5 i j a b hi hj).1
  have h2 := Transit.sum_follow' (X.map func) states hnd s2 i a hi (fun j => ((adjacency func X).getD j []).getD i 0) fun j b hj => (s5 j i b a hj hi).1
  rw [List.length_map] at h1 h2
  refine ⟨h1, h2, ?_⟩
  rw [h1, h2]
  cases hY : X.map func with
  | nil => simp_all
  | cons y Y =>
    have hl : X.length - 1 = Y.length := by
      have := congrArg List.length hY
      rw [List.length_map, List.length_cons] at this
      omega
    rw [hl]
    have := Transit.balance a y Y
    simpa using this

theorem Transit.zip_repeat (P Q : List Nat) (k : Nat) :
    ((P ++ k :: k :: Q).dropLast.zip (P ++ k :: k :: Q).tail).filter (fun p => decide (p.1 ≠ p.2)) = ((P ++ k :: Q).dropLast.zip (P ++ k :: Q).tail).filter fun p => decide (p.1 ≠ p.2) := by
  have hc : ∀ (a b : Nat) (R : List Nat), (a :: b :: R).dropLast.zip (b :: R) = (a, b) :: (b :: R).dropLast.zip R := fun _ _ _ => rfl
  induction P with
  | nil => simp
  | cons a P ih =>
    cases P with
    | nil =>
      simp only [List.nil_append, List.cons_append, List.tail_cons] at ih ⊢
      rw [hc a k (k :: Q), hc a k Q, List.filter_cons, List.filter_cons, ih]
    | cons b P =>
      simp only [List.cons_append, List.tail_cons] at ih ⊢
      rw [hc a b (P ++ k :: k :: Q), hc a b (P ++ k :: Q), List.filter_cons, List.filter_cons, ih]

/-- **C153, waiting.** Staying in a state for longer changes nothing: the graph does not depend on how often a state is repeated. -/
theorem C153_repeated (func : List C → S) (A B : List (List C)) (x x' : List C) (h : func x' = func x) : adjacency func (A ++ x :: x' :: B) = adjacency func (A ++ x :: B) := by
  have hst : uniqueStates ((A ++ x :: x' :: B).map func) = uniqueStates ((A ++ x :: B).map func) := by
    apply List.Perm.eq_of_pairwise (le := (· < ·)) (fun a b _ _ h h' => absurd h' h.asymm) (uniqueStates_sorted _) (uniqueStates_sorted _)
    apply (List.perm_ext_iff_of_nodup ((uniqueStates_sorted _).imp fun h => h.ne) ((uniqueStates_sorted _).imp fun h => h.ne)).mpr
    intro y
    rw [uniqueStates_mem, uniqueStates_mem]
    simp only [List.map_append, List.map_cons, h, List.mem_append, List.mem_cons]
    tauto
  unfold adjacency
  simp only [hst]
  simp only [List.map_append, List.map_cons, h]
  rw [Transit.zip_repeat]

end

/-- **C153, false with weights.** Entries count transitions, and `GraphGeodesicDistance` takes them for lengths unless `unweighted=True`: in the series 0, 1, 2, 0, 1, 2, 0, 1 the step from 0 to 1, the most frequent
one, is the longest edge, of length 3. -/
theorem C153_refuted_weighted (engine : Engine ℚ) (hE : Correct engine) :
    adjacency (fun r : List Nat => r) [[0], [1], [2], [0], [1], [2], [0], [1]] = [[0, 3, 0], [0, 0, 2], [2, 0, 0]] ∧
    ∃ out, transitionGeodesic engine { directed := true } (fun r : List Nat => r) [[0], [1], [2], [0], [1], [2], [0], [1]] = .ok (3, out) ∧ out 0 1 = ((3 : ℚ) : WithTop ℚ) := by
  have hA : adjacency (fun r : List Nat => r) [[0], [1], [2], [0], [1], [2], [0], [1]] = [[0, 3, 0], [0, 0, 2], [2, 0, 0]] := by decide +kernel
  refine ⟨hA, ?_⟩
  set A : List (List Nat) := [[0, 3, 0], [0, 0, 2], [2, 0, 0]] with hAdef
  have hedge : ∀ i j (w : ℚ), DocEdge (storedMatrix A) i j w ↔ i < A.length ∧ j < A.length ∧ (A.getD i []).getD j 0 ≠ 0 ∧ w = (((A.getD i []).getD j 0 : Nat) : ℚ) := Transit.edge A
  obtain ⟨out, h1, h2⟩ := C142_well_defined engine hE { directed := true } (storedMatrix A) (Transit.wellFormed A) fun _ i j w h => by
    rw [((hedge i j w).1 h).2.2.2]
    exact Nat.cast_nonneg _
  refine ⟨out, ?_, ?_⟩
  · unfold transitionGeodesic
    rw [hA]
    exact h1
  · rw [(h2 0 (by decide) 1 (by decide)).2]
    constructor
    · have := Walk.cons (E := Step (DocEdge (storedMatrix A : GraphInput ℚ)) true false) 0 1 1 3 0 ⟨3, .inl ((hedge 0 1 3).2 ⟨by decide, by decide, by decide, by norm_num [hAdef]⟩), rfl⟩ (.nil 1)
      rwa [add_zero] at this
    · intro l hl
      have hmono : ∀ i j l, Walk (Step (DocEdge (storedMatrix A : GraphInput ℚ)) true false) i j l → 0 ≤ l :=
        fun i j l h => walk_nonneg (step_nonneg (fun i j w h => by rw [((hedge i j w).1 h).2.2.2]; exact Nat.cast_nonneg _) _ _) h
      cases hl with
      | cons _ k _ w l hs hw =>
        obtain ⟨v, hv | ⟨hd, -⟩, hwv⟩ := hs
        · obtain ⟨-, h3, h4, hv'⟩ := (hedge 0 k v).1 hv
          have h5 : k < 3 := h3
          have := hmono _ _ _ hw
          interval_cases k
          · exact absurd rfl h4
          · have e : (((A.getD 0 []).getD 1 0 : Nat) : ℚ) = 3 := by norm_num [hAdef]
            rw [if_neg (by decide)] at hwv
            rw [hwv, hv', e]
            linarith
          · exact absurd rfl h4
        · exact absurd hd (by decide)

/-! ### Examples -/

/-- Non-vacuity of `C153_transitions`: the states 0, 1, 2, 1; from 0 to 2 in two steps. -/
example (engine : Engine ℚ) (hE : Correct engine) :
    ∃ out, transitionGeodesic engine ⟨true, true, .auto⟩ (fun r : List Nat => r) [[0], [1], [1], [2], [1]] = .ok (3, out) ∧ out 0 1 = ((1 : ℚ) : WithTop ℚ) ∧ out 0 2 ≤ ((2 : ℚ) : WithTop ℚ) ∧
      out 1 0 ≠ ((1 : ℚ) : WithTop ℚ) := by
  obtain ⟨states, out, h1, h2, h3, h4⟩ := C153_transitions engine hE ⟨true, true, .auto⟩ rfl (fun r : List Nat => r) [[0], [1], [1], [2], [1]]
  have hs : states = [[0], [1], [2]] := by
    apply List.Perm.eq_of_pairwise (le := (· < ·)) (fun a b _ _ h h' => absurd h' h.asymm) h1 (by decide)
    apply (List.perm_ext_iff_of_nodup (h1.imp fun h => h.ne) (by decide)).mpr
    intro y
    rw [h2]
    simp
    tauto
  subst hs
  refine ⟨out, h3, (h4 0 1 [0] [1] rfl rfl).2.2.1.2 ⟨by decide, .inl ⟨0, rfl, rfl⟩⟩, ?_, ?_⟩
  · have := (h4 0 2 [0] [2] rfl rfl).2.2.2 0 3 (by decide) rfl rfl
    have e : changes ([[0], [1], [1], [2], [1]].map fun r : List Nat => r) 0 3 = 2 := by decide +kernel
    refine this.trans ?_
    erw [e]
    exact le_of_eq (by norm_num)
  · intro h
    obtain ⟨-, ⟨t, ht, ht'⟩ | ⟨hd, -⟩⟩ := (h4 1 0 [1] [0] rfl rfl).2.2.1.1 h
    · have : t + 1 < 5 := (List.getElem?_eq_some_iff.1 ht').1
      have : t < 4 := by omega
      interval_cases t <;> simp at ht ht'
    · exact absurd hd (by decide)

/-- Non-vacuity of `C153_balance` and `C153_repeated`. -/
example : adjacency (fun r : List Nat => r) [[0], [1], [1], [2], [1]] = [[0, 1, 0], [0, 0, 1], [0, 1, 0]] ∧ adjacency (fun r : List Nat => r) [[0], [1], [2], [1]] = [[0, 1, 0], [0, 0, 1], [0, 1, 0]] := by
  decide +kernel

end Gtda.Props
