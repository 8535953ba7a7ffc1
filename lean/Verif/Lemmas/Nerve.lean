import Verif.Model.Nerve
import Verif.Spec.Nerve
import Mathlib.Data.List.Nodup
import Mathlib.Data.List.Sort
import Mathlib.Data.Finset.Card
import Mathlib.Tactic.Linarith

set_option autoImplicit false

/-!
# Helper lemmas for `Nerve`
-/

namespace Gtda.Mapper
open Gtda.Py Gtda.Spec

/-! ### The dictionary -/

structure DictInv {ν : Type} [DecidableEq ν] (d : List (ν × List Nat)) (L : List (ν × Nat)) : Prop where
  nodup : (d.map Prod.fst).Nodup
  keys : ∀ k, k ∈ d.map Prod.fst ↔ k ∈ L.map Prod.fst
  vals : ∀ p ∈ d, p.2 = (L.filter (fun q => q.1 = p.1)).map Prod.snd

theorem dictInv_append {ν : Type} [DecidableEq ν] {d : List (ν × List Nat)} {L : List (ν × Nat)} (h : DictInv d L) (k : ν) (i : Nat) :
    DictInv (dictAppend d k i) (L ++ [(k, i)]) := by
  unfold dictAppend
  by_cases hk : k ∈ d.map Prod.fst
  · rw [if_pos hk]
    have hkeys : (d.map fun p => if p.1 = k then (p.1, p.2 ++ [i]) else p).map Prod.fst = d.map Prod.fst := by
      rw [List.map_map]; apply List.map_congr_left; intro p _; simp only [Function.comp]; split <;> rfl
    refine ⟨by rw [hkeys]; exact h.nodup, ?_, ?_⟩
    · intro k'
      rw [hkeys, h.keys]
      simp only [List.map_append, List.map_cons, List.map_nil, List.mem_append, List.mem_singleton]
      constructor
      · exact Or.inl
      · rintro (h1 | rfl)
        · exact h1
        · exact (h.keys _).1 hk
    · intro p hp
      obtain ⟨q, hq, rfl⟩ := List.mem_map.1 hp
      have := h.vals q hq
      by_cases hqk : q.1 = k
      · simp only [hqk, if_true, List.filter_append, List.map_append]
        rw [this, hqk]; simp
      · have hkq : ¬ k = q.1 := fun h => hqk h.symm
        simp only [hqk, if_false, List.filter_append, List.map_append]
        rw [this]; simp [hkq]
  · rw [if_neg hk]
    refine ⟨?_, ?_, ?_⟩
    · rw [List.map_append, List.nodup_append]
      refine ⟨h.nodup, by simp, ?_⟩
      intro a ha b hb
      simp only [List.map_cons, List.map_nil, List.mem_singleton] at hb
      subst hb
      rintro rfl; exact hk ha
    · intro k'
      simp only [List.map_append, List.map_cons, List.map_nil, List.mem_append, List.mem_singleton, h.keys]
    · intro p hp
      rw [List.mem_append] at hp
      rcases hp with hp | hp
      · have hkp : ¬ k = p.1 := by
          rintro rfl; exact hk (List.mem_map_of_mem hp)
        rw [h.vals p hp]; simp [List.filter_append, hkp]
      · simp only [List.mem_singleton] at hp
        subst hp
        have : L.filter (fun q => q.1 = k) = [] := by
          rw [List.filter_eq_nil_iff]
          intro q hq hqk
          simp only [decide_eq_true_eq] at hqk
          exact hk ((h.keys k).2 (List.mem_map.2 ⟨q, hq, hqk⟩))
        simp [List.filter_append, this]

theorem dictInv_fold {ν : Type} [DecidableEq ν] (s : List ν) (i : Nat) :
    ∀ {d : List (ν × List Nat)} {L : List (ν × Nat)}, DictInv d L →
      DictInv (s.foldl (fun d k => dictAppend d k i) d) (L ++ s.map fun k => (k, i)) := by
  induction s with
  | nil => intro d L h; simpa using h
  | cons a t ih =>
    intro d L h
    have := ih (dictInv_append h a i)
    simpa [List.append_assoc] using this

theorem dictInv_fold2 {ν : Type} [DecidableEq ν] (Z : List (List ν × Nat)) :
    ∀ {d : List (ν × List Nat)} {L : List (ν × Nat)}, DictInv d L →
      DictInv (Z.foldl (fun d p => p.1.foldl (fun d k => dictAppend d k p.2) d) d) (L ++ Z.flatMap fun p => p.1.map fun k => (k, p.2)) := by
  induction Z with
  | nil => intro d L h; simpa using h
  | cons a t ih =>
    intro d L h
    have := ih (dictInv_fold a.1 a.2 h)
    simpa [List.append_assoc] using this

theorem filter_eq_nodup {ν : Type} [DecidableEq ν] (s : List ν) (hs : s.Nodup) (k : ν) :
    s.filter (fun q => q = k) = if k ∈ s then [k] else [] := by
  induction s with
  | nil => simp
  | cons a t ih =>
    rw [List.nodup_cons] at hs
    by_cases hak : a = k
    · subst hak
      have : t.filter (fun q => q = a) = [] := by
        rw [List.filter_eq_nil_iff]; intro q hq h; simp only [decide_eq_true_eq] at h; subst h; exact hs.1 hq
      simp [this]
    · have hka : ¬ k = a := fun h => hak h.symm
      simp [List.filter_cons, hak, hka, ih hs.2]

theorem flat_filter {ν : Type} [DecidableEq ν] (Z : List (List ν × Nat)) (hZ : ∀ p ∈ Z, p.1.Nodup) (k : ν) :
    ((Z.flatMap fun p => p.1.map fun c => (c, p.2)).filter (fun q => q.1 = k)).map Prod.snd =
      (Z.filter fun p => k ∈ p.1).map Prod.snd := by
  induction Z with
  | nil => rfl
  | cons a t ih =>
    rw [List.flatMap_cons, List.filter_append, List.map_append, ih (fun p hp => hZ p (by simp [hp])), List.filter_map]
    have : (a.1.filter ((fun q : ν × Nat => decide (q.1 = k)) ∘ fun c => (c, a.2))) = if k ∈ a.1 then [k] else [] := by
      rw [← filter_eq_nodup a.1 (hZ a (by simp)) k]; rfl
    rw [this, List.filter_cons]
    by_cases h : k ∈ a.1 <;> simp [h]

theorem zipIdx_filter_range {ν : Type} [DecidableEq ν] (X : List (List ν)) (k : ν) :
    (X.zipIdx.filter fun p => k ∈ p.1).map Prod.snd = samplesOf X k := by
  unfold samplesOf
  have : X.zipIdx = (List.range X.length).map fun i => (X.getD i [], i) := by
    apply List.ext_getElem?
    intro i
    rw [List.getElem?_zipIdx, List.getElem?_map]
    by_cases h : i < X.length
    · rw [List.getElem?_range h, List.getElem?_eq_getElem h]; simp [List.getD_eq_getElem?_getD, h]
    · rw [List.getElem?_eq_none (by omega), List.getElem?_eq_none (by simp; omega)]; rfl
  rw [this, List.filter_map, List.map_map]
  simp only [Function.comp_def]
  simp

/-- The dictionary of nodes: distinct keys, exactly the labels that occur, with their samples in ascending order. -/
theorem labelsToIndices_spec {ν : Type} [DecidableEq ν] (X : List (List ν)) (hX : ∀ s ∈ X, s.Nodup) :
    ((labelsToIndices X).map Prod.fst).Nodup ∧ (∀ k, k ∈ (labelsToIndices X).map Prod.fst ↔ ∃ s ∈ X, k ∈ s) ∧
    ∀ p ∈ labelsToIndices X, p.2 = samplesOf X p.1 := by
  have h := dictInv_fold2 X.zipIdx (d := []) (L := []) ⟨by simp, by simp, by simp⟩
  rw [List.nil_append] at h
  have hZ : ∀ p ∈ X.zipIdx, p.1.Nodup := by
    intro p hp
    exact hX _ (by obtain ⟨s, i⟩ := p; exact List.fst_mem_of_mem_zipIdx hp)
  refine ⟨h.nodup, ?_, ?_⟩
  · intro k
    have := h.keys k
    unfold labelsToIndices
    rw [this]
    simp only [List.mem_map, List.mem_flatMap, Prod.exists]
    constructor
    · rintro ⟨a, b, ⟨s, i, hs, c, hc, heq⟩, rfl⟩
      cases heq
      exact ⟨s, List.fst_mem_of_mem_zipIdx hs, hc⟩
    · rintro ⟨s, hs, hk⟩
      obtain ⟨i, hi, rfl⟩ := List.getElem_of_mem hs
      exact ⟨k, i, ⟨X[i], i, by rw [List.mk_mem_zipIdx_iff_getElem?]; exact List.getElem?_eq_getElem hi, k, hk, rfl⟩, rfl⟩
  · intro p hp
    have := h.vals p hp
    rw [this, flat_filter _ hZ, zipIdx_filter_range]

/-! ### Ordered pairs -/

theorem mem_combinations2_zipIdx {α : Type _} (l : List α) (k : Nat) (a b : α) (i j : Nat) :
    ((a, i), (b, j)) ∈ combinations2 (l.zipIdx k) ↔ k ≤ i ∧ i < j ∧ l[i - k]? = some a ∧ l[j - k]? = some b := by
  induction l generalizing k with
  | nil => simp [combinations2]
  | cons x t ih =>
    rw [List.zipIdx_cons, combinations2, List.mem_append, ih]
    constructor
    · rintro (h | ⟨h1, h2, h3, h4⟩)
      · obtain ⟨⟨c, m⟩, hc, heq⟩ := List.mem_map.1 h
        cases heq
        rw [List.mk_mem_zipIdx_iff_le_and_getElem?_sub] at hc
        refine ⟨le_refl _, by omega, by simp, ?_⟩
        have : j - i = (j - (i + 1)) + 1 := by omega
        rw [this]; simpa using hc.2
      · refine ⟨by omega, h2, ?_, ?_⟩
        · have : i - k = (i - (k + 1)) + 1 := by omega
          rw [this]; simpa using h3
        · have : j - k = (j - (k + 1)) + 1 := by omega
          rw [this]; simpa using h4
    · rintro ⟨h1, h2, h3, h4⟩
      have hj : j - k = (j - (k + 1)) + 1 := by omega
      rw [hj, List.getElem?_cons_succ] at h4
      rcases Nat.eq_or_lt_of_le h1 with h | h
      · subst h
        left
        simp only [Nat.sub_self, List.getElem?_cons_zero, Option.some.injEq] at h3
        subst h3
        refine List.mem_map.2 ⟨(b, j), ?_, rfl⟩
        rw [List.mk_mem_zipIdx_iff_le_and_getElem?_sub]
        exact ⟨by omega, h4⟩
      · right
        have hi : i - k = (i - (k + 1)) + 1 := by omega
        rw [hi, List.getElem?_cons_succ] at h3
        exact ⟨by omega, h2, h3, h4⟩

theorem nodup_combinations2 {α : Type _} (l : List α) (h : l.Nodup) : (combinations2 l).Nodup := by
  induction l with
  | nil => simp [combinations2]
  | cons x t ih =>
    rw [List.nodup_cons] at h
    rw [combinations2, List.nodup_append]
    refine ⟨h.2.map (fun a b hab => by simpa using hab), ih h.2, ?_⟩
    rintro a ha b hb rfl
    obtain ⟨c, hc, rfl⟩ := List.mem_map.1 ha
    exact h.1 (by
      clear ih ha
      have key : ∀ (l : List α) (p : α × α), p ∈ combinations2 l → p.1 ∈ l := by
        intro l
        induction l with
        | nil => intro p hp; simp [combinations2] at hp
        | cons y u ih =>
          intro p hp
          rw [combinations2, List.mem_append] at hp
          rcases hp with hp | hp
          · obtain ⟨d, -, rfl⟩ := List.mem_map.1 hp; simp
          · exact List.mem_cons_of_mem _ (ih p hp)
      exact key t _ hb)

/-! ### Intersections -/

theorem mem_intersect1d (a b : List Nat) (x : Nat) : x ∈ intersect1d a b ↔ x ∈ a ∧ x ∈ b := by
  unfold intersect1d
  rw [List.mem_insertionSort, List.mem_dedup, List.mem_filter]; simp

theorem nodup_intersect1d (a b : List Nat) : (intersect1d a b).Nodup := by
  unfold intersect1d
  rw [(List.perm_insertionSort _ _).nodup_iff]
  exact List.nodup_dedup _

theorem sortedLE_ext {l l' : List Nat} (h : l.Pairwise (· < ·)) (h' : l'.Pairwise (· < ·)) (hm : ∀ x, x ∈ l ↔ x ∈ l') : l = l' :=
  List.Perm.eq_of_pairwise (fun a b _ _ h1 h2 => absurd h1 (by omega)) h h'
    ((List.perm_ext_iff_of_nodup (h.imp (by intro a b; omega)) (h'.imp (by intro a b; omega))).2 hm)

theorem sorted_intersect1d (a b : List Nat) : (intersect1d a b).Pairwise (· < ·) := by
  have h1 : (intersect1d a b).Pairwise (· ≤ ·) := List.pairwise_insertionSort _ _
  have h2 := nodup_intersect1d a b
  exact (h1.and h2).imp (by intro a b h; omega)

theorem sorted_samplesOf {ν : Type} [DecidableEq ν] (X : List (List ν)) (c : ν) : (samplesOf X c).Pairwise (· < ·) :=
  List.pairwise_lt_range.filter _

theorem mem_samplesOf {ν : Type} [DecidableEq ν] (X : List (List ν)) (c : ν) (i : Nat) :
    i ∈ samplesOf X c ↔ c ∈ X.getD i [] := by
  unfold samplesOf
  rw [List.mem_filter, List.mem_range]
  simp only [decide_eq_true_eq, and_iff_right_iff_imp]
  intro h
  by_contra hn
  rw [List.getD_eq_getElem?_getD, List.getElem?_eq_none (by omega)] at h
  simp at h

theorem mem_sharedSamples {ν : Type} [DecidableEq ν] (X : List (List ν)) (c d : ν) (i : Nat) :
    i ∈ sharedSamples X c d ↔ c ∈ X.getD i [] ∧ d ∈ X.getD i [] := by
  unfold sharedSamples
  rw [List.mem_filter, List.mem_range]
  simp only [decide_eq_true_eq, and_iff_right_iff_imp]
  intro h
  by_contra hn
  rw [List.getD_eq_getElem?_getD, List.getElem?_eq_none (by omega)] at h
  simp at h

theorem intersect1d_samples {ν : Type} [DecidableEq ν] (X : List (List ν)) (c d : ν) :
    intersect1d (samplesOf X c) (samplesOf X d) = sharedSamples X c d := by
  refine sortedLE_ext (l' := sharedSamples X c d) (sorted_intersect1d _ _) (List.pairwise_lt_range.filter _) ?_
  intro x
  rw [mem_intersect1d, mem_samplesOf, mem_samplesOf, mem_sharedSamples]

end Gtda.Mapper
