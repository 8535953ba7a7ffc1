import Verif.Spec.Graphs
import Verif.Lemmas.List
import Mathlib.Algebra.Order.Monoid.Unbundled.WithTop
import Mathlib.Data.Rat.Floor
import Mathlib.Data.List.Lex
import Mathlib.Tactic.Linarith

set_option autoImplicit false
set_option linter.unusedSectionVars false

/-!
# C66, C67, C70, C86: transition graphs and geodesic distances
-/

namespace Gtda.Props
open Gtda.Py Gtda.Graphs Gtda.Spec

section transition
variable {K S : Type} [LinearOrder S]

theorem uniqueStates_mem (Y : List S) (s : S) : s ∈ uniqueStates Y ↔ s ∈ Y := by
  unfold uniqueStates
  rw [List.mem_dedup, List.mem_insertionSort]

theorem uniqueStates_sorted (Y : List S) : (uniqueStates Y).Pairwise (· < ·) := by
  have h1 : (uniqueStates Y).Pairwise (· ≤ ·) := ((List.pairwise_insertionSort (· ≤ ·) Y)).sublist (List.dedup_sublist _)
  have h2 : (uniqueStates Y).Nodup := List.nodup_dedup _
  exact (h1.and h2).imp fun h => lt_of_le_of_ne h.1 h.2

theorem idxOf_unique {l : List S} (hl : l.Nodup) (i : Nat) (s : S) (h : l[i]? = some s) : l.idxOf s = i := by
  obtain ⟨hi, rfl⟩ := List.getElem?_eq_some_iff.1 h
  exact List.Nodup.idxOf_getElem hl i hi

theorem zip_tail_count (Y : List S) (g : S → Nat) (hg : ∀ a ∈ Y, ∀ b ∈ Y, g a = g b → a = b) (a b : S) (ha : a ∈ Y) (hb : b ∈ Y) (hab : g a ≠ g b) :
    (((Y.map g).dropLast.zip (Y.map g).tail).filter fun p => decide (p.1 ≠ p.2)).countP (fun p => decide (p = (g a, g b))) = followCount Y a b := by
  rw [List.countP_filter]
  have hz : (Y.map g).dropLast.zip (Y.map g).tail = (List.range (Y.length - 1)).map fun (t : Nat) => ((Y.map g).getD t 0, (Y.map g).getD (t + 1) 0) := by
    apply List.ext_getElem
    · simp
    · intro t h1 h2
      simp only [List.length_zip, List.length_dropLast, List.length_map, List.length_tail] at h1
      simp only [List.getElem_zip, List.getElem_dropLast, List.getElem_tail, List.getElem_map, List.getElem_range, List.getD_eq_getElem?_getD]
      rw [List.getElem?_eq_getElem (by simp; omega), List.getElem?_eq_getElem (by simp; omega)]
      simp
  rw [hz, List.countP_map]
  unfold followCount
  apply List.countP_congr
  intro t ht
  rw [List.mem_range] at ht
  have h1 : t < Y.length := by omega
  have h2 : t + 1 < Y.length := by omega
  simp only [Function.comp_apply, List.getD_eq_getElem?_getD, List.getElem?_map, List.getElem?_eq_getElem h1, List.getElem?_eq_getElem h2, Option.map_some, Option.getD_some,
    Bool.and_eq_true, decide_eq_true_eq, Prod.mk.injEq, Option.some.injEq]
  constructor
  · rintro ⟨⟨h3, h4⟩, -⟩
    exact ⟨hg _ (List.getElem_mem h1) _ ha h3, hg _ (List.getElem_mem h2) _ hb h4⟩
  · rintro ⟨h3, h4⟩
    rw [h3, h4]
    exact ⟨⟨rfl, rfl⟩, hab⟩

/-- **C66.** The vertices of the transition graph are the distinct states (values of the preprocessing function on the rows) in increasing order. The entry `(i, j)` for
different states is the number of times state `j` immediately follows state `i`; the diagonal is zero. In particular an entry is not zero exactly when `i ≠ j` and state `j`
immediately follows state `i` somewhere. -/
theorem C66_transitions (func : List K → S) (X : List (List K)) :
    ∃ states : List S, states.Pairwise (· < ·) ∧ (∀ s, s ∈ states ↔ s ∈ X.map func) ∧
      (adjacency func X).length = states.length ∧ (∀ r ∈ adjacency func X, r.length = states.length) ∧
      ∀ (i j : Nat) (a b : S), states[i]? = some a → states[j]? = some b →
        ((adjacency func X).getD i []).getD j 0 = (if i = j then 0 else followCount (X.map func) a b) ∧
        (((adjacency func X).getD i []).getD j 0 ≠ 0 ↔ i ≠ j ∧ ∃ t : Nat, (X.map func)[t]? = some a ∧ (X.map func)[t + 1]? = some b) := by
  refine ⟨uniqueStates (X.map func), uniqueStates_sorted _, uniqueStates_mem _, ?_, ?_, ?_⟩
  · simp [adjacency]
  · intro r hr
    simp only [adjacency, List.mem_map] at hr
    obtain ⟨i, -, rfl⟩ := hr
    simp
  · intro i j a b hi hj
    have hnd : (uniqueStates (X.map func)).Nodup := List.nodup_dedup _
    have hil : i < (uniqueStates (X.map func)).length := (List.getElem?_eq_some_iff.1 hi).1
    have hjl : j < (uniqueStates (X.map func)).length := (List.getElem?_eq_some_iff.1 hj).1
    have ha : a ∈ X.map func := (uniqueStates_mem _ a).1 (List.mem_of_getElem? hi)
    have hb : b ∈ X.map func := (uniqueStates_mem _ b).1 (List.mem_of_getElem? hj)
    have hia := idxOf_unique hnd i a hi
    have hjb := idxOf_unique hnd j b hj
    have hinj : ∀ a ∈ X.map func, ∀ b ∈ X.map func, (uniqueStates (X.map func)).idxOf a = (uniqueStates (X.map func)).idxOf b → a = b := by
      intro a ha b hb h
      exact (List.idxOf_inj ((uniqueStates_mem _ a).2 ha)).1 h
    have hval : ((adjacency func X).getD i []).getD j 0 = (if i = j then 0 else followCount (X.map func) a b) := by
      have he : ((adjacency func X).getD i []).getD j 0 =
          ((((X.map func).map fun s => (uniqueStates (X.map func)).idxOf s).dropLast.zip ((X.map func).map fun s => (uniqueStates (X.map func)).idxOf s).tail).filter
            fun p => decide (p.1 ≠ p.2)).countP fun p => decide (p = (i, j)) := by
        simp only [adjacency, List.getD_eq_getElem?_getD, List.getElem?_map, List.getElem?_range hil, List.getElem?_range hjl, Option.map_some, Option.getD_some]
      rw [he]
      by_cases hij : i = j
      · rw [if_pos hij, List.countP_eq_zero]
        intro p hp
        have := (List.mem_filter.1 hp).2
        simp only [decide_eq_true_eq] at this ⊢
        rintro rfl
        exact this hij
      · rw [if_neg hij]
        have := zip_tail_count (X.map func) (fun s => (uniqueStates (X.map func)).idxOf s) hinj a b ha hb (by rw [hia, hjb]; exact hij)
        rw [hia, hjb] at this
        exact this
    refine ⟨hval, ?_⟩
    rw [hval]
    by_cases hij : i = j
    · simp [hij]
    · rw [if_neg hij]
      unfold followCount
      rw [← Nat.pos_iff_ne_zero, List.countP_pos_iff]
      constructor
      · rintro ⟨t, ht, h⟩
        simp only [Bool.and_eq_true, decide_eq_true_eq] at h
        exact ⟨hij, t, h⟩
      · rintro ⟨-, t, h1, h2⟩
        have := (List.getElem?_eq_some_iff.1 h2).1
        exact ⟨t, by rw [List.mem_range]; omega, by simp only [h1, h2, decide_true, Bool.and_self]⟩

/-- The first example of the documentation, with the ordinal patterns written out. -/
example : adjacency (fun r : List Nat => r) [[1, 0], [0, 1], [1, 0]] = [[0, 1], [1, 0]] := by decide +kernel

/-- **C66, false as documented.** The graph is documented as undirected and as a matrix of zeros and ones, but it is directed, and entries count occurrences. -/
theorem C66_refuted_undirected_zero_one :
    adjacency (fun r : List Nat => r) [[0], [1]] = [[0, 1], [0, 0]] ∧ adjacency (fun r : List Nat => r) [[0], [1], [0], [1]] = [[0, 2], [1, 0]] := by decide +kernel

/-- **C67, false.** The result does not depend on `func_params`: the preprocessing function is never called with them. -/
theorem C67_refuted_func_params {P : Type} (func : KwFunc K S P) (p q : Option P) (X : List (List (List K))) :
    transitionFitTransform func p X = transitionFitTransform func q X := rfl

/-- A preprocessing function for which the documented result, that of the function with its keyword argument filled in, differs: `func` rounds down to multiples of the keyword argument, by default one. -/
theorem C67_refuted_witness :
    ∃ (func : KwFunc Nat (List Nat) Nat) (p : Nat) (X : List (List Nat)),
      transitionFitTransform func (some p) [X] ≠ transitionFitTransform (fun (_ : Option Nat) => func (some p)) none [X] :=
  ⟨fun p r => r.map (· / p.getD 1), 10, [[3], [5]], by decide +kernel⟩

end transition

section geodesic
variable {K : Type} [Field K] [LinearOrder K] [IsStrictOrderedRing K]

theorem entryAt_iff (rows : List (List (Option K))) (i j : Nat) (w : K) : entryAt rows i j = some w ↔ ∃ r, rows[i]? = some r ∧ r[j]? = some (some w) := by
  unfold entryAt
  rw [List.getD_eq_getElem?_getD, List.getD_eq_getElem?_getD]
  cases h : rows[i]? with
  | none => simp
  | some r =>
    simp only [Option.getD_some, Option.some.injEq, exists_eq_left']
    cases h2 : r[j]? with
    | none => simp
    | some x => simp

theorem chooseMethod_D (m : Method) (rows : List (List (Option K))) (h : chooseMethod m rows = .D) (hm : m ≠ .D) : ∀ i j w, entryAt rows i j = some w → 0 ≤ w := by
  intro i j w hw
  unfold chooseMethod at h
  split at h
  · split at h
    · split at h
      · cases h
      · rename_i hneg
        by_contra hc
        apply hneg
        obtain ⟨r, hr, hrw⟩ := (entryAt_iff rows i j w).1 hw
        unfold anyNegative
        rw [List.any_eq_true]
        exact ⟨r, List.mem_of_getElem? hr, List.any_eq_true.2 ⟨some w, List.mem_of_getElem? hrw, by simpa using hc⟩⟩
    · exact absurd h hm
  · exact absurd h hm

theorem chooseMethod_FW (m : Method) (rows : List (List (Option K))) (h : chooseMethod m rows = .FW ∨ chooseMethod m rows = .auto) :
    ∀ i < rows.length, ∀ j < rows.length, i ≠ j → entryAt rows i j ≠ some 0 := by
  intro i hi j hj hij hc
  have hz : zeroOffDiag rows = true := by
    unfold zeroOffDiag
    rw [List.any_eq_true]
    exact ⟨i, List.mem_range.2 hi, List.any_eq_true.2 ⟨j, List.mem_range.2 hj, by simp [hij, hc]⟩⟩
  unfold chooseMethod at h
  rw [if_pos hz] at h
  by_cases hm : m = .auto ∨ m = .FW
  · rw [if_pos hm] at h
    split at h <;> simp at h
  · rw [if_neg hm] at h
    exact hm h.symm

theorem walk_congr {E F : Nat → Nat → K → Prop} (h : ∀ i j w, E i j w ↔ F i j w) (i j : Nat) (l : K) : Walk E i j l ↔ Walk F i j l := by
  constructor
  · intro hw
    induction hw with
    | nil i => exact .nil i
    | cons i k j w l h1 _ ih => exact .cons i k j w l ((h _ _ _).1 h1) ih
  · intro hw
    induction hw with
    | nil i => exact .nil i
    | cons i k j w l h1 _ ih => exact .cons i k j w l ((h _ _ _).2 h1) ih

theorem isDistance_congr {n : Nat} {E F : Nat → Nat → K → Prop} (h : ∀ i j w, E i j w ↔ F i j w) (d : Nat → Nat → WithTop K) : IsDistance n E d ↔ IsDistance n F d := by
  unfold IsDistance
  simp only [walk_congr h]

theorem step_congr {E F : Nat → Nat → K → Prop} (h : ∀ i j w, E i j w ↔ F i j w) (a b : Bool) (i j : Nat) (w : K) : Step E a b i j w ↔ Step F a b i j w := by
  unfold Step
  simp only [h]

/-- The graph handed over to SciPy has the documented edges. -/
theorem prepare_edges (m : Method) (X : GraphInput K) (hX : WellFormed X) :
    ∃ m' G, prepare m X = .ok (m', G) ∧ G.n = vertices X ∧ (∀ i j w, G.entry i j = some w ↔ DocEdge X i j w) ∧
      (m' = .D → m = .D ∨ ∀ i j w, G.entry i j = some w → 0 ≤ w) ∧ (m ≠ .auto → m ≠ .FW → m' = m) ∧
      (m' = .FW ∨ m' = .auto → G.isDense = true → ∀ i < G.n, ∀ j < G.n, i ≠ j → G.entry i j ≠ some 0) := by
  have hcm : ∀ rows : List (List (Option K)), m ≠ .auto → m ≠ .FW → chooseMethod m rows = m := by
    intro rows h1 h2
    unfold chooseMethod
    split
    · rw [if_neg (by simp [h1, h2])]
    · rfl
  cases X with
  | bool rows =>
    have h1 : (rows.all fun r => decide (r.length = rows.length)) = true := by rw [List.all_eq_true]; intro r hr; simpa using hX r hr
    have hedge : ∀ i j w, (if (rows.getD i []).getD j false then some (1 : K) else none) = some w ↔ (∃ r, rows[i]? = some r ∧ r[j]? = some true) ∧ w = 1 := by
      intro i j w
      have hb : (rows.getD i []).getD j false = true ↔ ∃ r, rows[i]? = some r ∧ r[j]? = some true := by
        rw [List.getD_eq_getElem?_getD, List.getD_eq_getElem?_getD]
        cases h : rows[i]? with
        | none => simp
        | some r =>
          simp only [Option.getD_some, Option.some.injEq, exists_eq_left']
          cases h2 : r[j]? with
          | none => simp
          | some x => simp
      by_cases hc : (rows.getD i []).getD j false = true
      · rw [if_pos hc]
        simp only [Option.some.injEq, eq_comm (a := (1 : K)), hb.1 hc, true_and]
      · rw [if_neg hc]
        simp only [reduceCtorEq, false_iff, not_and]
        intro h; exact absurd (hb.2 h) hc
    refine ⟨_, _, if_pos h1, rfl, hedge, ?_, hcm _, ?_⟩
    · intro _
      right
      intro i j w hw
      have := ((hedge i j w).1 hw).2
      rw [this]; exact zero_le_one
    · intro _ _ i _ j _ _ hc
      have := ((hedge i j 0).1 hc).2
      exact zero_ne_one this
  | dense rows =>
    have h1 : (rows.all fun r => decide (r.length = rows.length)) = true := by rw [List.all_eq_true]; intro r hr; simpa using hX r hr
    refine ⟨_, _, if_pos h1, rfl, entryAt_iff rows, ?_, hcm _, fun h _ => chooseMethod_FW m rows h⟩
    intro h
    by_cases hm : m = .D
    · exact Or.inl hm
    · exact Or.inr (chooseMethod_D m rows h hm)
  | masked rows =>
    have h1 : (rows.all fun r => decide (r.length = rows.length)) = true := by rw [List.all_eq_true]; intro r hr; simpa using hX r hr
    refine ⟨_, _, if_pos h1, rfl, entryAt_iff rows, ?_, hcm _, fun h _ => chooseMethod_FW m rows h⟩
    intro h
    by_cases hm : m = .D
    · exact Or.inl hm
    · exact Or.inr (chooseMethod_D m rows h hm)
  | sparse nr nc stored =>
    refine ⟨_, _, rfl, rfl, ?_, fun h => Or.inl h, fun _ _ => rfl, fun _ h => by cases h⟩
    intro i j w
    show (stored.find? fun e => decide (e.1 = (i, j))).map (·.2) = some w ↔ ((i, j), w) ∈ stored
    have hnd := hX.2
    rw [Option.map_eq_some_iff]
    constructor
    · rintro ⟨e, he, rfl⟩
      have h1 := List.mem_of_find?_eq_some he
      have h2 := List.find?_some he
      simp only [decide_eq_true_eq] at h2
      rw [← h2]; exact h1
    · intro hmem
      have hs : (stored.find? fun e => decide (e.1 = (i, j))).isSome := by
        rw [List.find?_isSome]
        exact ⟨_, hmem, by simp⟩
      obtain ⟨e, he⟩ := Option.isSome_iff_exists.1 hs
      have h1 := List.mem_of_find?_eq_some he
      have h2 := List.find?_some he
      simp only [decide_eq_true_eq] at h2
      refine ⟨e, he, ?_⟩
      have := List.inj_on_of_nodup_map hnd h1 hmem h2
      rw [this]

/-- **C70.** For every well-formed graph that has shortest walks (no negative cycles), `GraphGeodesicDistance` returns the lengths of shortest walks of the graph described in
the documentation (undirected if `directed=False`, counting edges if `unweighted=True`), whatever the method, provided that Dijkstra's algorithm is not requested explicitly on
a graph with negative weights. SciPy is called once, with a method `m` and a graph `G`: methods other than `'auto'` and `'FW'` are passed on unchanged, and Dijkstra's algorithm is never chosen by the library on a graph with
negative weights. -/
theorem C70_shortest_walks (engine : Engine K) (hE : Correct engine) (p : GeodesicParams) (X : GraphInput K) (hX : WellFormed X)
    (hD : p.method = .D → ∀ i j w, DocEdge X i j w → 0 ≤ w) (d : Nat → Nat → WithTop K) (hd : IsDistance (vertices X) (Step (DocEdge X) p.directed p.unweighted) d) :
    (∃ out, geodesic engine p X = .ok (vertices X, out) ∧ ∀ i < vertices X, ∀ j < vertices X, out i j = d i j) ∧
    ∃ m G, (∀ scipy : Engine K, geodesic scipy p X = .ok (vertices X, scipy m p.directed p.unweighted G)) ∧ (p.method ≠ .auto → p.method ≠ .FW → m = p.method) ∧ (p.method ≠ .D → m = .D → ∀ i j w, DocEdge X i j w → 0 ≤ w) := by
  obtain ⟨m', G, hp, hn, he, h1, h2, h3⟩ := prepare_edges p.method X hX
  refine ⟨⟨engine m' p.directed p.unweighted G, ?_, ?_⟩, m', G, ?_, h2, ?_⟩
  · unfold geodesic
    rw [hp, ← hn]; rfl
  · intro i hi j hj
    rw [← hn] at hi hj hd
    apply hE m' p.directed p.unweighted G d ?_ h3 ?_ i hi j hj
    · intro hm
      rcases h1 hm with h | h
      · intro i j w hw
        exact hD h i j w ((he i j w).1 hw)
      · exact h
    · exact (isDistance_congr (step_congr (fun i j w => (he i j w)) _ _) d).2 hd
  · intro scipy
    unfold geodesic
    rw [hp, ← hn]; rfl
  · intro hnD hm i j w hw
    rcases h1 hm with h | h
    · exact absurd h hnD
    · exact h i j w ((he i j w).2 hw)

theorem isDistance_unique {n : Nat} {E : Nat → Nat → K → Prop} {d e : Nat → Nat → WithTop K} (h1 : IsDistance n E d) (h2 : IsDistance n E e) :
    ∀ i < n, ∀ j < n, d i j = e i j := by
  intro i hi j hj
  obtain ⟨a1, a2⟩ := h1 i hi j hj
  obtain ⟨b1, b2⟩ := h2 i hi j hj
  apply le_antisymm
  · rcases b2 with h | ⟨l, hl, h⟩
    · rw [h]; exact le_top
    · rw [h]; exact a1 l hl
  · rcases a2 with h | ⟨l, hl, h⟩
    · rw [h]; exact le_top
    · rw [h]; exact b1 l hl

/-- Non-vacuity of `C70_shortest_walks`: there is a correct engine. -/
theorem correct_engine_exists : ∃ engine : Engine K, Correct engine := by
  classical
  refine ⟨fun _ a b G => if h : ∃ d, IsDistance G.n (Step (fun i j w => G.entry i j = some w) a b) d then h.choose else fun _ _ => ⊤, ?_⟩
  intro m a b G d _ _ hd i hi j hj
  have h : ∃ d, IsDistance G.n (Step (fun i j w => G.entry i j = some w) a b) d := ⟨d, hd⟩
  simp only [dif_pos h]
  exact isDistance_unique h.choose_spec hd i hi j hj

theorem walk_append {E : Nat → Nat → K → Prop} {i k j : Nat} {l l' : K} (h1 : Walk E i k l) (h2 : Walk E k j l') : Walk E i j (l + l') := by
  induction h1 with
  | nil i => rw [zero_add]; exact h2
  | cons i m k w l h _ ih => rw [add_assoc]; exact .cons i m j w _ h (ih h2)

theorem walk_reverse {E : Nat → Nat → K → Prop} (hs : ∀ i j w, E i j w → E j i w) {i j : Nat} {l : K} (h : Walk E i j l) : Walk E j i l := by
  induction h with
  | nil i => exact .nil i
  | cons i m j w l h _ ih =>
    rw [add_comm]
    apply walk_append ih
    have := Walk.cons m i i w 0 (hs _ _ _ h) (.nil i)
    rwa [add_zero] at this

theorem step_nonneg {E : Nat → Nat → K → Prop} (hE : ∀ i j w, E i j w → 0 ≤ w) (a b : Bool) : ∀ i j w, Step E a b i j w → 0 ≤ w := by
  rintro i j w ⟨v, h, rfl⟩
  split
  · exact zero_le_one
  · rcases h with h | ⟨-, h⟩ <;> exact hE _ _ _ h

theorem walk_nonneg {E : Nat → Nat → K → Prop} (hE : ∀ i j w, E i j w → 0 ≤ w) {i j : Nat} {l : K} (h : Walk E i j l) : 0 ≤ l := by
  induction h with
  | nil i => exact le_refl _
  | cons i m j w l h _ ih => exact add_nonneg (hE _ _ _ h) ih

/-- **C86.** Geodesic distances on a graph: the diagonal is zero, the triangle inequality holds, a distance is infinite exactly when there is no walk, distances are symmetric if
the graph is undirected, they are not negative if no weight is negative, and an edge bounds the distance of its ends. -/
theorem C86_extended_pseudometric (n : Nat) (E : Nat → Nat → K → Prop) (hn : ∀ i j w, E i j w → i < n ∧ j < n) (directed unweighted : Bool) (d : Nat → Nat → WithTop K)
    (hd : IsDistance n (Step E directed unweighted) d) :
    (∀ i < n, d i i = 0) ∧
    (∀ i < n, ∀ k < n, ∀ j < n, d i j ≤ d i k + d k j) ∧
    (∀ i < n, ∀ j < n, d i j = ⊤ ↔ ¬ ∃ l, Walk (Step E directed unweighted) i j l) ∧
    (directed = false → ∀ i < n, ∀ j < n, d i j = d j i) ∧
    ((∀ i j w, E i j w → 0 ≤ w) → ∀ i < n, ∀ j < n, 0 ≤ d i j) ∧
    (∀ i j w, E i j w → d i j ≤ ((if unweighted then 1 else w : K) : WithTop K)) := by
  have htri : ∀ i < n, ∀ k < n, ∀ j < n, d i j ≤ d i k + d k j := by
    intro i hi k hk j hj
    rcases (hd i hi k hk).2 with h | ⟨l, hl, h⟩
    · rw [h]; simp
    · rcases (hd k hk j hj).2 with h' | ⟨l', hl', h'⟩
      · rw [h']; simp
      · rw [h, h', ← WithTop.coe_add]
        exact (hd i hi j hj).1 _ (walk_append hl hl')
  refine ⟨?_, htri, ?_, ?_, ?_, ?_⟩
  · intro i hi
    have h0 : d i i ≤ ((0 : K) : WithTop K) := (hd i hi i hi).1 0 (.nil i)
    rcases (hd i hi i hi).2 with h | ⟨l, hl, h⟩
    · rw [h] at h0; simp at h0
    · -- a closed walk of length l < 0 could be repeated
      rw [h] at h0
      have hl0 : l ≤ 0 := by exact_mod_cast h0
      have h2 := (hd i hi i hi).1 _ (walk_append hl hl)
      rw [h] at h2
      have : l ≤ l + l := by exact_mod_cast h2
      have : l = 0 := by linarith
      rw [h, this]; rfl
  · intro i hi j hj
    constructor
    · rintro h ⟨l, hl⟩
      have := (hd i hi j hj).1 l hl
      rw [h] at this; simp at this
    · intro h
      rcases (hd i hi j hj).2 with h' | ⟨l, hl, -⟩
      · exact h'
      · exact absurd ⟨l, hl⟩ h
  · intro hdir
    have hs : ∀ i j w, Step E directed unweighted i j w → Step E directed unweighted j i w := by
      rintro i j w ⟨v, h, rfl⟩
      refine ⟨v, ?_, rfl⟩
      rcases h with h | ⟨-, h⟩
      · exact Or.inr ⟨hdir, h⟩
      · exact Or.inl h
    have key : ∀ i < n, ∀ j < n, d i j ≤ d j i := by
      intro i hi j hj
      rcases (hd j hj i hi).2 with h | ⟨l, hl, h⟩
      · rw [h]; exact le_top
      · rw [h]; exact (hd i hi j hj).1 l (walk_reverse hs hl)
    intro i hi j hj
    exact le_antisymm (key i hi j hj) (key j hj i hi)
  · intro hnn i hi j hj
    rcases (hd i hi j hj).2 with h | ⟨l, hl, h⟩
    · rw [h]; exact le_top
    · rw [h]
      have := walk_nonneg (step_nonneg hnn _ _) hl
      exact_mod_cast this
  · intro i j w hw
    obtain ⟨hi, hj⟩ := hn i j w hw
    have := (hd i hi j hj).1 _ (Walk.cons i j j _ 0 ⟨w, Or.inl hw, rfl⟩ (.nil j))
    rwa [add_zero] at this

/-- **C70, false as documented.** The documented default is `directed=True`; the constructor's is `False`. -/
theorem C70_refuted_default_directed : ({} : GeodesicParams).directed = false := rfl

/-- Non-vacuity of `C70_shortest_walks` and `C86_extended_pseudometric`: the graph with one edge of length 2 from vertex 0 to vertex 1, and a third vertex without edges. -/
example : IsDistance (K := ℚ) 3 (Step (DocEdge (.sparse 2 3 [((0, 1), 2)])) true false) (fun i j => if i = j then 0 else if i = 0 ∧ j = 1 then ((2 : ℚ) : WithTop ℚ) else ⊤) ∧
    WellFormed (K := ℚ) (.sparse 2 3 [((0, 1), 2)]) ∧ vertices (K := ℚ) (.sparse 2 3 [((0, 1), 2)]) = 3 := by
  refine ⟨?_, ⟨by simp, by simp⟩, rfl⟩
  have hstep : ∀ i j w, Step (K := ℚ) (DocEdge (.sparse 2 3 [((0, 1), 2)])) true false i j w → i = 0 ∧ j = 1 ∧ w = 2 := by
    rintro i j w ⟨v, h, rfl⟩
    simp [DocEdge] at h
    simp [h]
  have hwalk : ∀ i j l, Walk (Step (K := ℚ) (DocEdge (.sparse 2 3 [((0, 1), 2)])) true false) i j l → (i = j ∧ l = 0) ∨ (i = 0 ∧ j = 1 ∧ l = 2) := by
    intro i j l h
    cases h with
    | nil => exact Or.inl ⟨rfl, rfl⟩
    | cons _ k _ w l h1 h2 =>
      obtain ⟨rfl, rfl, rfl⟩ := hstep _ _ _ h1
      cases h2 with
      | nil => right; simp
      | cons _ k' _ w' l' h3 h4 => obtain ⟨h, -, -⟩ := hstep _ _ _ h3; cases h
  intro i hi j hj
  constructor
  · intro l hl
    rcases hwalk i j l hl with ⟨rfl, rfl⟩ | ⟨rfl, rfl, rfl⟩
    · simp
    · simp
  · by_cases hij : i = j
    · right
      subst hij
      exact ⟨0, .nil i, by simp⟩
    · by_cases h01 : i = 0 ∧ j = 1
      · right
        obtain ⟨rfl, rfl⟩ := h01
        refine ⟨2, ?_, by simp⟩
        have := Walk.cons (E := Step (K := ℚ) (DocEdge (.sparse 2 3 [((0, 1), 2)])) true false) 0 1 1 2 0 ⟨2, Or.inl (by simp [DocEdge]), by simp⟩ (.nil 1)
        simpa using this
      · left
        beta_reduce
        rw [if_neg hij, if_neg h01]

end geodesic

end Gtda.Props
