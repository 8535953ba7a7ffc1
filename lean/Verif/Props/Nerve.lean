import Verif.Lemmas.NerveEdges
import Verif.Lemmas.List

set_option autoImplicit false

/-!
# C46–C48: Mapper graphs
-/

namespace Gtda.Props
open Gtda.Py Gtda.Mapper Gtda.Spec

variable {P C : Type} [DecidableEq P] [DecidableEq C]

theorem nerveNodes_spec (X : List (List (P × C))) (hX : ∀ s ∈ X, s.Nodup) :
    ((nerveNodes X).map fun v => (v.set, v.cluster)).Nodup ∧
    (∀ c, c ∈ (nerveNodes X).map (fun v => (v.set, v.cluster)) ↔ ∃ s ∈ X, c ∈ s) ∧
    ∀ v ∈ nerveNodes X, v.elements = samplesOf X (v.set, v.cluster) := by
  obtain ⟨h1, h2, h3⟩ := labelsToIndices_spec X hX
  have hmap : (nerveNodes X).map (fun v => (v.set, v.cluster)) = (labelsToIndices X).map Prod.fst := by
    unfold nerveNodes; rw [List.map_map]; rfl
  refine ⟨by rw [hmap]; exact h1, by rw [hmap]; exact h2, ?_⟩
  intro v hv
  unfold nerveNodes at hv
  obtain ⟨p, hp, rfl⟩ := List.mem_map.1 hv
  exact h3 p hp

/-- **C46.** Without contraction `Nerve` returns the 1-skeleton of the nerve: one node per cluster, carrying exactly the samples of the cluster in
ascending order; between two nodes one edge, exactly when they come from different pullback sets and share at least one and at least
`min_intersection` samples, carrying the number of shared samples and (on request) these samples; no loops and no multiple edges. -/
theorem C46_nerve (X : List (List (P × C))) (hX : ∀ s ∈ X, s.Nodup) (hne : ∃ s ∈ X, s ≠ []) (minInt : Int) (store : Bool) (fuel : Nat) :
    ∃ G, nerve minInt store false fuel X = .ok (some G) ∧
      (G.nodes.map fun v => (v.set, v.cluster)).Nodup ∧
      (∀ c, c ∈ G.nodes.map (fun v => (v.set, v.cluster)) ↔ ∃ s ∈ X, c ∈ s) ∧
      (∀ v ∈ G.nodes, v.elements = samplesOf X (v.set, v.cluster)) ∧
      (G.edges.map fun e => (e.src, e.dst)).Nodup ∧
      (∀ e ∈ G.edges, e.src < e.dst ∧ e.dst < G.nodes.length) ∧
      ∀ i j u v, G.nodes[i]? = some u → G.nodes[j]? = some v → i < j → ∀ e : Edge,
        (e ∈ G.edges ∧ e.src = i ∧ e.dst = j ↔
          u.set ≠ v.set ∧
          (let shared := sharedSamples X (u.set, u.cluster) (v.set, v.cluster)
           1 ≤ shared.length ∧ minInt ≤ (shared.length : Int) ∧
           e = ⟨i, j, shared.length, if store then some shared else none⟩)) := by
  obtain ⟨h1, h2, h3⟩ := nerveNodes_spec X hX
  have hnn : nerveNodes X ≠ [] := by
    obtain ⟨s, hs, hsn⟩ := hne
    obtain ⟨c, hc⟩ := List.exists_mem_of_ne_nil s hsn
    have := (h2 c).2 ⟨s, hs, hc⟩
    intro h; rw [h] at this; simp at this
  refine ⟨⟨nerveNodes X, (generateEdgeData minInt false (nerveNodes X)).pairs.map
    fun p => ⟨p.1.1, p.1.2, p.2.1, if store then some p.2.2 else none⟩⟩, ?_, h1, h2, h3, ?_, ?_, ?_⟩
  · unfold nerve; simp only; rw [if_neg hnn]; rfl
  · have := nodup_generateEdgeData minInt false (nerveNodes X)
    rw [List.map_map]
    exact this
  · intro e he
    obtain ⟨⟨⟨i, j⟩, w, I⟩, hp, rfl⟩ := List.mem_map.1 he
    obtain ⟨u, v, hu, hv, hij, -⟩ := (mem_generateEdgeData _ _ _ _ _ _ _).1 hp
    refine ⟨hij, ?_⟩
    by_contra hh; simp only at hh; rw [List.getElem?_eq_none (by omega)] at hv; cases hv
  · intro i j u v hu hv hij e
    simp only at hu hv
    have hI : intersect1d u.elements v.elements = sharedSamples X (u.set, u.cluster) (v.set, v.cluster) := by
      rw [h3 u (List.mem_of_getElem? hu), h3 v (List.mem_of_getElem? hv), intersect1d_samples]
    simp only
    constructor
    · rintro ⟨he, rfl, rfl⟩
      obtain ⟨⟨⟨i, j⟩, w, I⟩, hp, rfl⟩ := List.mem_map.1 he
      obtain ⟨u', v', hu', hv', -, hs, rfl, rfl, h0, hmin, -⟩ := (mem_generateEdgeData _ _ _ _ _ _ _).1 hp
      simp only at hu hv
      rw [hu] at hu'; cases hu'
      rw [hv] at hv'; cases hv'
      rw [hI] at h0 hmin
      exact ⟨hs, by omega, hmin, by rw [hI]⟩
    · rintro ⟨hs, h0, hmin, rfl⟩
      refine ⟨List.mem_map.2 ⟨((i, j), _, _), (mem_generateEdgeData _ _ _ _ _ _ _).2
        ⟨u, v, hu, hv, hij, hs, rfl, rfl, by rw [hI]; omega, by rw [hI]; exact hmin, by simp⟩, by rw [hI]⟩, rfl, rfl⟩

/-- With no cluster at all `Nerve` raises (`StopIteration`). -/
theorem C46_no_cluster_raises (X : List (List (P × C))) (hX : ∀ s ∈ X, s = []) (minInt : Int) (store contract : Bool) (fuel : Nat) :
    nerve minInt store contract fuel X = .error .stopIteration := by
  obtain ⟨-, h2, -⟩ := nerveNodes_spec X (fun s hs => by rw [hX s hs]; exact List.nodup_nil)
  have : nerveNodes X = [] := by
    cases hn : nerveNodes X with
    | nil => rfl
    | cons a t =>
      obtain ⟨s, hs, hc⟩ := (h2 (a.set, a.cluster)).1 (by simp [hn])
      rw [hX s hs] at hc; simp at hc
  unfold nerve; simp only; rw [if_pos this]

/-- Four samples, three pullback sets; clusters `(0,0) = {0,1}`, `(1,0) = {1,2,3}`, `(2,0) = {2,3}`. -/
def exampleCover : List (List (Nat × Nat)) := [[(0, 0)], [(0, 0), (1, 0)], [(1, 0), (2, 0)], [(1, 0), (2, 0)]]

example : (∀ s ∈ exampleCover, (s.map Prod.fst).Nodup) ∧ (∃ s ∈ exampleCover, s ≠ []) ∧
    nerve 1 true false 0 exampleCover = .ok (some
      ⟨[⟨0, 0, [0, 1]⟩, ⟨1, 0, [1, 2, 3]⟩, ⟨2, 0, [2, 3]⟩], [⟨0, 1, 1, some [1]⟩, ⟨1, 2, 2, some [2, 3]⟩]⟩) := by decide +kernel

/-! ### Contraction -/

theorem mem_nodup_of_fst {X : List (List (P × C))} (hX : ∀ s ∈ X, (s.map Prod.fst).Nodup) : ∀ s ∈ X, s.Nodup :=
  fun s hs => List.Nodup.of_map _ (hX s hs)

/-- Everything we need about the contraction. -/
theorem contract_core (X : List (List (P × C))) (hX : ∀ s ∈ X, (s.map Prod.fst).Nodup) (hne : ∃ s ∈ X, s ≠ []) (minInt : Int) (store : Bool) :
    ∃ k, ∀ fuel, k ≤ fuel → ∃ lim : List Nat,
      nerve minInt store true fuel X = .ok (some (contractGraph lim ⟨nerveNodes X, (generateEdgeData minInt true (nerveNodes X)).pairs.map
        fun p => ⟨p.1.1, p.1.2, p.2.1, if store then some p.2.2 else none⟩⟩)) ∧
      lim.length = (nerveNodes X).length ∧
      (∀ x t, lim[x]? = some t → lim[t]? = some t ∧ IsLimit (generateEdgeData minInt true (nerveNodes X)).mapping x t) ∧
      (∀ (i j : Nat) u v, lim[i]? = some i → lim[j]? = some j → i ≠ j → (nerveNodes X)[i]? = some u → (nerveNodes X)[j]? = some v →
        ¬ u.elements ⊆ v.elements) := by
  obtain ⟨h1, h2, h3⟩ := nerveNodes_spec X (mem_nodup_of_fst hX)
  have hnn : nerveNodes X ≠ [] := by
    obtain ⟨s, hs, hsn⟩ := hne
    obtain ⟨c, hc⟩ := List.exists_mem_of_ne_nil s hsn
    have := (h2 c).2 ⟨s, hs, hc⟩
    intro h; rw [h] at this; simp at this
  have hnd : ∀ u ∈ nerveNodes X, u.elements.Nodup := by
    intro u hu
    rw [h3 u hu]
    exact (sorted_samplesOf X _).imp (by intro a b; omega)
  have hinv := mapInv_generate hnd minInt
  obtain ⟨k, hk⟩ := limitMapping_ok hinv hnd
  refine ⟨k, fun fuel hf => ?_⟩
  obtain ⟨lim, hlim, hlen, hL⟩ := hk fuel hf
  refine ⟨lim, ?_, hlen, ?_, ?_⟩
  · unfold nerve; simp only; rw [if_neg hnn, if_pos trivial, hlim]
  · intro x t hx
    have hl := hL x t hx
    refine ⟨?_, hl⟩
    have htm : t < (generateEdgeData minInt true (nerveNodes X)).mapping.length := by
      by_contra hh; have := hl.fixed; rw [List.getElem?_eq_none (by omega)] at this; cases this
    have htl : t < lim.length := by rw [hlen, ← hinv.len]; exact htm
    have := (hL t _ (List.getElem?_eq_getElem htl)).self hl.fixed
    rw [List.getElem?_eq_getElem htl, this]
  · intro i j u v hi hj hij hu hv hsub
    have fi : (generateEdgeData minInt true (nerveNodes X)).mapping[i]? = some i := (hL i i hi).fixed
    have fj : (generateEdgeData minInt true (nerveNodes X)).mapping[j]? = some j := (hL j j hj).fixed
    have hum := List.mem_of_getElem? hu
    have hvm := List.mem_of_getElem? hv
    -- a sample of the smaller node
    obtain ⟨s, hs, hc⟩ := (h2 (u.set, u.cluster)).1 (List.mem_map_of_mem hum)
    obtain ⟨x, hx, rfl⟩ := List.getElem_of_mem hs
    have hxu : x ∈ u.elements := by
      rw [h3 u hum, mem_samplesOf]; simpa [List.getD_eq_getElem?_getD, hx] using hc
    have hxv : x ∈ v.elements := hsub hxu
    have hcv : (v.set, v.cluster) ∈ X[x] := by
      have := hxv
      rw [h3 v hvm, mem_samplesOf] at this; simpa [List.getD_eq_getElem?_getD, hx] using this
    have hids : (u.set, u.cluster) ≠ (v.set, v.cluster) := by
      intro heq
      apply hij
      have hi' : ((nerveNodes X).map fun v => (v.set, v.cluster))[i]? = some (u.set, u.cluster) := by simp [hu]
      have hj' : ((nerveNodes X).map fun v => (v.set, v.cluster))[j]? = some (u.set, u.cluster) := by simp [hv, heq]
      have hil : i < ((nerveNodes X).map fun v => (v.set, v.cluster)).length := by
        by_contra hh; rw [List.getElem?_eq_none (by omega)] at hi'; cases hi'
      exact (List.getElem?_inj hil h1).1 (hi'.trans hj'.symm)
    have hsets : u.set ≠ v.set := by
      intro heq
      apply hids
      exact List.inj_on_of_nodup_map (hX _ hs) hc hcv heq
    have hint : ∀ a b : List Nat, x ∈ a → x ∈ b → (intersect1d a b).length ≠ 0 := by
      intro a b ha hb h0
      have := (mem_intersect1d a b x).2 ⟨ha, hb⟩
      rw [List.length_eq_zero_iff.1 h0] at this; simp at this
    rcases Nat.lt_or_gt_of_ne hij with hlt | hlt
    · have hm := (mem_combinations2_zipIdx (nerveNodes X) 0 u v i j).2 ⟨by omega, hlt, by simpa using hu, by simpa using hv⟩
      have := hinv.moved _ hm hsets (hint _ _ hxu hxv)
      by_cases hvu : v.elements ⊆ u.elements
      · exact this.1 hvu fj
      · exact this.2 hsub hvu fi
    · have hm := (mem_combinations2_zipIdx (nerveNodes X) 0 v u j i).2 ⟨by omega, hlt, by simpa using hv, by simpa using hu⟩
      exact (hinv.moved _ hm hsets.symm (hint _ _ hxv hxu)).1 hsub fi

/-- The kept nodes of a contraction, as clusters. -/
theorem kept_clusters {X : List (List (P × C))} {lim : List Nat} (hlen : lim.length = (nerveNodes X).length) :
    ∀ i, i ∈ (List.range lim.length).filter (fun i => lim[i]? = some i) ↔ lim[i]? = some i := by
  intro i
  rw [List.mem_filter, List.mem_range]
  simp only [decide_eq_true_eq, and_iff_right_iff_imp]
  intro h
  by_contra hh; rw [List.getElem?_eq_none (by omega)] at h; cases h

theorem filterMap_nodes {α β : Type _} (l : List Nat) (nodes : List α) (f : α → β) (h : ∀ i ∈ l, i < nodes.length) :
    (l.filterMap fun i => (nodes[i]?).map f).length = l.length ∧
    ∀ a : Nat, (l.filterMap fun i => (nodes[i]?).map f)[a]? = (l[a]?).bind fun i => (nodes[i]?).map f := by
  induction l with
  | nil => simp
  | cons i t ih =>
    obtain ⟨h1, h2⟩ := ih (fun j hj => h j (by simp [hj]))
    have hi := h i (by simp)
    rw [List.filterMap_cons]
    simp only [List.getElem?_eq_getElem hi, Option.map_some]
    refine ⟨by simp [h1], ?_⟩
    intro a
    cases a with
    | zero => simp [hi]
    | succ a => simpa using h2 a

/-- **C47, C48 (structure).** With `contract_nodes=True` and clusters of one pullback set disjoint: the contraction terminates, and the graph
returned has one node per cluster of a list `kept` of distinct clusters such that every cluster is contained in a kept one, no kept cluster is contained in
another kept cluster, and two different kept clusters are adjacent exactly when they share at least one and at least `min_intersection` samples; the
largest weight among the edges joining them is the number of samples they share. -/
theorem C47_contraction (X : List (List (P × C))) (hX : ∀ s ∈ X, (s.map Prod.fst).Nodup) (hne : ∃ s ∈ X, s ≠ [])
    (minInt : Int) (store : Bool) :
    ∃ k, ∀ fuel, k ≤ fuel → ∃ (G : Graph P C) (kept : List (P × C)),
      nerve minInt store true fuel X = .ok (some G) ∧ kept.Nodup ∧ G.nodes.length = kept.length ∧
      (∀ c ∈ kept, ∃ s ∈ X, c ∈ s) ∧
      (∀ s ∈ X, ∀ c ∈ s, ∃ d ∈ kept, samplesOf X c ⊆ samplesOf X d) ∧
      (∀ c ∈ kept, ∀ d ∈ kept, c ≠ d → ¬ samplesOf X c ⊆ samplesOf X d) ∧
      (∀ e ∈ G.edges, e.src < kept.length ∧ e.dst < kept.length) ∧
      (∀ i j c d, kept[i]? = some c → kept[j]? = some d → i ≠ j →
        (∀ e ∈ G.edges, (e.src = i ∧ e.dst = j) ∨ (e.src = j ∧ e.dst = i) →
          1 ≤ (sharedSamples X c d).length ∧ minInt ≤ ((sharedSamples X c d).length : Int) ∧ e.weight ≤ (sharedSamples X c d).length) ∧
        (1 ≤ (sharedSamples X c d).length → minInt ≤ ((sharedSamples X c d).length : Int) →
          ∃ e ∈ G.edges, ((e.src = i ∧ e.dst = j) ∨ (e.src = j ∧ e.dst = i)) ∧ e.weight = (sharedSamples X c d).length)) := by
  obtain ⟨h1, h2, h3⟩ := nerveNodes_spec X (mem_nodup_of_fst hX)
  obtain ⟨k, hk⟩ := contract_core X hX hne minInt store
  refine ⟨k, fun fuel hf => ?_⟩
  obtain ⟨lim, hG, hlen, hlim, hmax⟩ := hk fuel hf
  have hnd : ∀ u ∈ nerveNodes X, u.elements.Nodup := by
    intro u hu
    rw [h3 u hu]
    exact (sorted_samplesOf X _).imp (by intro a b; omega)
  have hinv := mapInv_generate hnd minInt
  have hkept := kept_clusters (X := X) hlen
  set keptIdx := (List.range lim.length).filter (fun i => lim[i]? = some i) with hkI
  have hkn : keptIdx.Nodup := List.nodup_range.filter _
  have hklt : ∀ i ∈ keptIdx, i < (nerveNodes X).length := by
    intro i hi
    rw [← hlen]
    exact List.mem_range.1 (List.mem_filter.1 hi).1
  obtain ⟨hfl, hfg⟩ := filterMap_nodes keptIdx (nerveNodes X) (fun v => (v.set, v.cluster)) hklt
  have hkeptget : ∀ (a : Nat) (c : P × C), (keptIdx.filterMap fun i => ((nerveNodes X)[i]?).map fun v => (v.set, v.cluster))[a]? = some c ↔
      ∃ (i : Nat) (u : Node P C), keptIdx[a]? = some i ∧ (nerveNodes X)[i]? = some u ∧ c = (u.set, u.cluster) := by
    intro a c
    rw [hfg a]
    constructor
    · intro h
      obtain ⟨i, hi, h'⟩ := Option.bind_eq_some_iff.1 h
      obtain ⟨u, hu, hc⟩ := Option.map_eq_some_iff.1 h'
      exact ⟨i, u, hi, hu, hc.symm⟩
    · rintro ⟨i, u, hi, hu, rfl⟩
      simp [hi, hu]
  have hkeptmem : ∀ c : P × C, c ∈ (keptIdx.filterMap fun i => ((nerveNodes X)[i]?).map fun v => (v.set, v.cluster)) ↔
      ∃ (i : Nat) (u : Node P C), lim[i]? = some i ∧ (nerveNodes X)[i]? = some u ∧ c = (u.set, u.cluster) := by
    intro c
    rw [List.mem_filterMap]
    constructor
    · rintro ⟨i, hi, h'⟩
      obtain ⟨u, hu, hc⟩ := Option.map_eq_some_iff.1 h'
      exact ⟨i, u, (hkept i).1 hi, hu, hc.symm⟩
    · rintro ⟨i, u, hi, hu, rfl⟩
      exact ⟨i, (hkept i).2 hi, by simp [hu]⟩
  -- limits of nodes and samples
  have hnodeOf : ∀ s ∈ X, ∀ c ∈ s, ∃ (i : Nat) (u : Node P C), (nerveNodes X)[i]? = some u ∧ c = (u.set, u.cluster) := by
    intro s hs c hc
    obtain ⟨u, hu, rfl⟩ := List.mem_map.1 ((h2 c).2 ⟨s, hs, hc⟩)
    obtain ⟨i, hi, rfl⟩ := List.getElem_of_mem hu
    exact ⟨i, _, List.getElem?_eq_getElem hi, rfl⟩
  have hlimOf : ∀ (i : Nat) (u : Node P C), (nerveNodes X)[i]? = some u → ∃ (t : Nat) (v : Node P C), lim[i]? = some t ∧ lim[t]? = some t ∧ (nerveNodes X)[t]? = some v ∧
      u.elements ⊆ v.elements := by
    intro i u hu
    have hil : i < lim.length := by
      rw [hlen]; by_contra hh; rw [List.getElem?_eq_none (by omega)] at hu; cases hu
    obtain ⟨ht, hl⟩ := hlim i _ (List.getElem?_eq_getElem hil)
    obtain ⟨v, hv, hs⟩ := hl.sub hinv hu
    exact ⟨_, v, List.getElem?_eq_getElem hil, ht, hv, hs⟩
  refine ⟨_, keptIdx.filterMap fun i => ((nerveNodes X)[i]?).map fun v => (v.set, v.cluster), hG, ?_, ?_, ?_, ?_, ?_, ?_, ?_⟩
  · -- nodup
    rw [List.nodup_iff_injective_getElem]
    intro ⟨a, ha⟩ ⟨b, hb⟩ hab
    simp only at hab
    obtain ⟨i, u, hi, hu, hcu⟩ := (hkeptget a _).1 (List.getElem?_eq_getElem ha)
    obtain ⟨j, v, hj, hv, hcv⟩ := (hkeptget b _).1 (List.getElem?_eq_getElem hb)
    have hids : (u.set, u.cluster) = (v.set, v.cluster) := by rw [← hcu, ← hcv, hab]
    have hi' : ((nerveNodes X).map fun v => (v.set, v.cluster))[i]? = some (u.set, u.cluster) := by simp [hu]
    have hj' : ((nerveNodes X).map fun v => (v.set, v.cluster))[j]? = some (u.set, u.cluster) := by simp [hv, hids]
    have hil : i < ((nerveNodes X).map fun v => (v.set, v.cluster)).length := by
      by_contra hh; rw [List.getElem?_eq_none (by omega)] at hi'; cases hi'
    have hij : i = j := (List.getElem?_inj hil h1).1 (hi'.trans hj'.symm)
    have hal : a < keptIdx.length := by rw [← hfl]; exact ha
    have : a = b := (List.getElem?_inj hal hkn).1 (by rw [hi, hj, hij])
    exact Fin.ext this
  · -- number of nodes
    rw [hfl]
    unfold contractGraph
    simp only
    rw [← hkI]
    apply Gtda.length_filterMap_total
    intro j hj
    have hjl := (hkept j).1 hj
    have hmem : j ∈ lim := List.mem_of_getElem? hjl
    have : lim.idxOf j < (nerveNodes X).length := by rw [← hlen]; exact List.idxOf_lt_length_iff.2 hmem
    rw [List.getElem?_eq_getElem this]; rfl
  · intro c hc
    obtain ⟨i, u, -, hu, rfl⟩ := (hkeptmem c).1 hc
    exact (h2 _).1 (List.mem_map_of_mem (List.mem_of_getElem? hu))
  · intro s hs c hc
    obtain ⟨i, u, hu, rfl⟩ := hnodeOf s hs c hc
    obtain ⟨t, v, -, ht, hv, hsub⟩ := hlimOf i u hu
    refine ⟨(v.set, v.cluster), (hkeptmem _).2 ⟨t, v, ht, hv, rfl⟩, ?_⟩
    rw [← h3 u (List.mem_of_getElem? hu), ← h3 v (List.mem_of_getElem? hv)]
    exact hsub
  · intro c hc d hd hcd
    obtain ⟨i, u, hi, hu, rfl⟩ := (hkeptmem c).1 hc
    obtain ⟨j, v, hj, hv, rfl⟩ := (hkeptmem d).1 hd
    rw [← h3 u (List.mem_of_getElem? hu), ← h3 v (List.mem_of_getElem? hv)]
    apply hmax i j u v hi hj _ hu hv
    rintro rfl
    rw [hu] at hv; cases hv; exact hcd rfl
  · -- edges end in kept nodes
    intro e he
    unfold contractGraph at he
    simp only at he
    rw [← hkI] at he
    obtain ⟨e', he', heq⟩ := List.mem_filterMap.1 he
    split at heq
    · split at heq
      · rename_i hab
        cases heq
        rw [hfl]
        exact ⟨List.idxOf_lt_length_iff.2 hab.1, List.idxOf_lt_length_iff.2 hab.2⟩
      · cases heq
    · cases heq
  · -- adjacency
    intro a b c d hc hd hab
    obtain ⟨i, u, hi, hu, rfl⟩ := (hkeptget a c).1 hc
    obtain ⟨j, v, hj, hv, rfl⟩ := (hkeptget b d).1 hd
    have hum := List.mem_of_getElem? hu
    have hvm := List.mem_of_getElem? hv
    have hii := (hkept i).1 (List.mem_of_getElem? hi)
    have hjj := (hkept j).1 (List.mem_of_getElem? hj)
    have hidx : ∀ a i : Nat, keptIdx[a]? = some i → keptIdx.idxOf i = a := by
      intro a i h
      have hal : a < keptIdx.length := by
        by_contra hh; rw [List.getElem?_eq_none (by omega)] at h; cases h
      rw [List.getElem?_eq_getElem hal] at h; cases h
      exact hkn.idxOf_getElem a hal
    have hij : i ≠ j := by
      rintro rfl
      exact hab (by rw [← hidx a i hi, ← hidx b i hj])
    have hI : intersect1d u.elements v.elements = sharedSamples X (u.set, u.cluster) (v.set, v.cluster) := by
      rw [h3 u hum, h3 v hvm, intersect1d_samples]
    have hlen_le : ∀ (u1 v1 : Node P C), u1.elements ⊆ u.elements → v1.elements ⊆ v.elements →
        (intersect1d u1.elements v1.elements).length ≤ (intersect1d u.elements v.elements).length := by
      intro u1 v1 hs1 hs2
      apply (List.Nodup.subperm (nodup_intersect1d _ _) _).length_le
      intro x hx
      rw [mem_intersect1d] at hx ⊢
      exact ⟨hs1 hx.1, hs2 hx.2⟩
    have hcomm : ∀ a b : List Nat, (intersect1d a b).length = (intersect1d b a).length := by
      intro a b
      apply List.Perm.length_eq
      rw [List.perm_ext_iff_of_nodup (nodup_intersect1d _ _) (nodup_intersect1d _ _)]
      intro x; rw [mem_intersect1d, mem_intersect1d, and_comm]
    rw [← hI]
    constructor
    · intro e he hends
      unfold contractGraph at he
      simp only at he
      rw [← hkI] at he
      obtain ⟨e', he', heq⟩ := List.mem_filterMap.1 he
      obtain ⟨⟨⟨p, q⟩, w, I⟩, hp, rfl⟩ := List.mem_map.1 he'
      obtain ⟨u1, v1, hu1, hv1, -, -, rfl, rfl, h0, hmin, -⟩ := (mem_generateEdgeData _ _ _ _ _ _ _).1 hp
      simp only at heq
      split at heq
      · rename_i t1 t2 ht1 ht2
        split at heq
        · rename_i hm
          cases heq
          simp only at hends
          have hinj : ∀ x y b : Nat, x ∈ keptIdx → keptIdx[b]? = some y → keptIdx.idxOf x = b → x = y := by
            intro x y b hx hb hxb
            have hxl := List.idxOf_lt_length_iff.2 hx
            have := List.getElem_idxOf hxl
            rw [← hxb, List.getElem?_eq_getElem hxl, this] at hb
            exact Option.some.inj hb
          obtain ⟨t1', v1', ht1', -, hv1', hsub1⟩ := hlimOf _ _ hu1
          obtain ⟨t2', v2', ht2', -, hv2', hsub2⟩ := hlimOf _ _ hv1
          rw [ht1] at ht1'; cases ht1'
          rw [ht2] at ht2'; cases ht2'
          rcases hends with ⟨e1, e2⟩ | ⟨e1, e2⟩
          · have g1 := hinj _ _ _ hm.1 hi e1
            have g2 := hinj _ _ _ hm.2 hj e2
            subst g1 g2
            rw [hu] at hv1'; cases hv1'
            rw [hv] at hv2'; cases hv2'
            have := hlen_le u1 v1 hsub1 hsub2
            exact ⟨by omega, by omega, this⟩
          · have g1 := hinj _ _ _ hm.1 hj e1
            have g2 := hinj _ _ _ hm.2 hi e2
            subst g1 g2
            rw [hv] at hv1'; cases hv1'
            rw [hu] at hv2'; cases hv2'
            have := hlen_le v1 u1 hsub2 hsub1
            rw [hcomm v1.elements u1.elements] at this
            exact ⟨by omega, by omega, this⟩
        · cases heq
      · cases heq
    · intro h0 hmin
      have hnuv := hmax i j u v hii hjj hij hu hv
      have hnvu := hmax j i v u hjj hii hij.symm hv hu
      have hsets : u.set ≠ v.set := by
        intro heq
        obtain ⟨x, hx⟩ := List.exists_mem_of_length_pos (by omega : 0 < (intersect1d u.elements v.elements).length)
        rw [mem_intersect1d, h3 u hum, h3 v hvm, mem_samplesOf, mem_samplesOf] at hx
        have hxX : X.getD x [] ∈ X := by
          by_cases hxl : x < X.length
          · simp [List.getD_eq_getElem?_getD, hxl]
          · rw [List.getD_eq_getElem?_getD, List.getElem?_eq_none (by omega)] at hx; simp at hx
        have := List.inj_on_of_nodup_map (hX _ hxX) hx.1 hx.2 heq
        have hu' : u = v := by
          have e1 := h3 u hum; have e2 := h3 v hvm
          rw [this, ← e2] at e1
          have e3 := congrArg Prod.fst this; have e4 := congrArg Prod.snd this
          cases u; cases v; simp_all
        exact hnuv (by rw [hu']; exact fun _ h => h)
      have hnl : (intersect1d u.elements v.elements).length ≠ u.elements.length := fun h =>
        hnuv ((intersect_len_left _ _ (hnd u hum)).1 h)
      have hnr : (intersect1d u.elements v.elements).length ≠ v.elements.length := fun h =>
        hnvu ((intersect_len_right _ _ (hnd v hvm)).1 h)
      have hki := (hkept i).2 hii
      have hkj := (hkept j).2 hjj
      rcases Nat.lt_or_gt_of_ne hij with hlt | hlt
      · refine ⟨⟨a, b, (intersect1d u.elements v.elements).length,
          if store then some (intersect1d u.elements v.elements) else none⟩, ?_, ⟨Or.inl ⟨rfl, rfl⟩, rfl⟩⟩
        unfold contractGraph
        simp only
        rw [← hkI]
        refine List.mem_filterMap.2 ⟨⟨i, j, _, _⟩, List.mem_map.2 ⟨((i, j), _, _), (mem_generateEdgeData _ _ _ _ _ _ _).2
          ⟨u, v, hu, hv, hlt, hsets, rfl, rfl, by omega, hmin, fun _ => ⟨hnr, hnl⟩⟩, rfl⟩, ?_⟩
        simp only [hii, hjj]
        rw [if_pos ⟨hki, hkj⟩, hidx a i hi, hidx b j hj]
      · rw [hcomm u.elements v.elements] at h0 hmin hnl hnr
        refine ⟨⟨b, a, (intersect1d v.elements u.elements).length,
          if store then some (intersect1d v.elements u.elements) else none⟩, ?_, ⟨Or.inr ⟨rfl, rfl⟩, hcomm _ _⟩⟩
        unfold contractGraph
        simp only
        rw [← hkI]
        refine List.mem_filterMap.2 ⟨⟨j, i, _, _⟩, List.mem_map.2 ⟨((j, i), _, _), (mem_generateEdgeData _ _ _ _ _ _ _).2
          ⟨v, u, hv, hu, hlt, hsets.symm, rfl, rfl, by omega, hmin, fun _ => ⟨hnl, hnr⟩⟩, rfl⟩, ?_⟩
        simp only [hii, hjj]
        rw [if_pos ⟨hkj, hki⟩, hidx a i hi, hidx b j hj]

example : nerve 1 true true 5 exampleCover = .ok (some ⟨[⟨0, 0, [0, 1]⟩, ⟨1, 0, [1, 2, 3]⟩], [⟨0, 1, 1, some [1]⟩]⟩) := by decide +kernel

/-- **C48 is false** (attributes): two clusters, `(0,0) = {0}` and `(1,0) = {0,1}`. The larger one is kept, but the node carries the attributes of the
smaller one, so sample 1 is in no node of the graph. -/
theorem C48_refuted_attributes :
    let X : List (List (Nat × Nat)) := [[(0, 0), (1, 0)], [(1, 0)]]
    (∀ s ∈ X, (s.map Prod.fst).Nodup) ∧
    nerve 1 true true 5 X = .ok (some ⟨[⟨0, 0, [0]⟩], []⟩) := by decide +kernel

/-- **C48 is false** (multiple edges): clusters `(0,0) = {0,1,2}`, `(1,0) = {0,1}`, `(2,0) = {1,2,3}`: after contracting the second into the first there are two
edges between the remaining nodes, with weights 2 and 1. -/
theorem C48_refuted_multiple_edges :
    let X : List (List (Nat × Nat)) := [[(0, 0), (1, 0)], [(0, 0), (1, 0), (2, 0)], [(0, 0), (2, 0)], [(2, 0)]]
    (∀ s ∈ X, (s.map Prod.fst).Nodup) ∧
    nerve 1 false true 5 X = .ok (some ⟨[⟨0, 0, [0, 1, 2]⟩, ⟨2, 0, [1, 2, 3]⟩], [⟨0, 1, 2, none⟩, ⟨0, 1, 1, none⟩]⟩) := by decide +kernel

/-- **C48 is false** (loops): two overlapping clusters `{0,1}` and `{1,2}` both contained in `{0,1,2}`. -/
theorem C48_refuted_loops :
    let X : List (List (Nat × Nat)) := [[(0, 0), (1, 0)], [(0, 0), (1, 0), (2, 0)], [(0, 0), (2, 0)]]
    (∀ s ∈ X, (s.map Prod.fst).Nodup) ∧
    nerve 1 false true 5 X = .ok (some ⟨[⟨0, 0, [0, 1, 2]⟩], [⟨0, 0, 1, none⟩]⟩) := by decide +kernel

/-- **C48, what is true of the attributes.** The nodes of the contracted graph are nodes of the uncontracted one. If moreover no node of the uncontracted
graph has fewer samples than, and all its samples in, a later node, then every node of the contracted graph is a maximal cluster and every sample is in
some node. Missing: see the refutations (attributes of a node may be those of a contracted one; loops, multiple edges). -/
theorem C48_attributes_partial (X : List (List (P × C))) (hX : ∀ s ∈ X, (s.map Prod.fst).Nodup) (hne : ∃ s ∈ X, s ≠ [])
    (minInt : Int) (store : Bool) (G0 : Graph P C) (hG0 : nerve minInt store false 0 X = .ok (some G0)) :
    ∃ k, ∀ fuel, k ≤ fuel → ∃ G, nerve minInt store true fuel X = .ok (some G) ∧ (∀ v ∈ G.nodes, v ∈ G0.nodes) ∧
      ((∀ (i j : Nat) (u v : Node P C), i < j → G0.nodes[i]? = some u → G0.nodes[j]? = some v → u.elements ⊆ v.elements → v.elements ⊆ u.elements) →
        (∀ v ∈ G.nodes, ∀ w ∈ G0.nodes, v.elements ⊆ w.elements → w.elements ⊆ v.elements) ∧
        (∀ w ∈ G0.nodes, ∃ v ∈ G.nodes, w.elements ⊆ v.elements)) := by
  obtain ⟨h1, h2, h3⟩ := nerveNodes_spec X (mem_nodup_of_fst hX)
  have hG0n : G0.nodes = nerveNodes X := by
    unfold nerve at hG0
    simp only at hG0
    split at hG0
    · cases hG0
    · simp only [Bool.false_eq_true, if_false] at hG0
      cases hG0; rfl
  obtain ⟨k, hk⟩ := contract_core X hX hne minInt store
  refine ⟨k, fun fuel hf => ?_⟩
  obtain ⟨lim, hG, hlen, hlim, hmax⟩ := hk fuel hf
  have hnd : ∀ u ∈ nerveNodes X, u.elements.Nodup := by
    intro u hu
    rw [h3 u hu]
    exact (sorted_samplesOf X _).imp (by intro a b; omega)
  have hinv := mapInv_generate hnd minInt
  have hkept := kept_clusters (X := X) hlen
  have hlimOf : ∀ (i : Nat) (u : Node P C), (nerveNodes X)[i]? = some u → ∃ (t : Nat) (v : Node P C), lim[i]? = some t ∧
      lim[t]? = some t ∧ (nerveNodes X)[t]? = some v ∧ u.elements ⊆ v.elements := by
    intro i u hu
    have hil : i < lim.length := by
      rw [hlen]; by_contra hh; rw [List.getElem?_eq_none (by omega)] at hu; cases hu
    obtain ⟨ht, hl⟩ := hlim i _ (List.getElem?_eq_getElem hil)
    obtain ⟨v, hv, hs⟩ := hl.sub hinv hu
    exact ⟨_, v, List.getElem?_eq_getElem hil, ht, hv, hs⟩
  refine ⟨_, hG, ?_, ?_⟩
  · intro v hv
    unfold contractGraph at hv
    simp only at hv
    obtain ⟨j, -, hj⟩ := List.mem_filterMap.1 hv
    rw [hG0n]; exact List.mem_of_getElem? hj
  · rw [hG0n]
    intro hord
    -- the mapping never increases indices
    have hdown : ∀ x t : Nat, lim[x]? = some t → t ≤ x := by
      intro x t hx
      have hp := (hlim x t hx).2.path
      clear hx
      induction hp with
      | refl => exact le_refl _
      | @tail b c _ hbc ih =>
        by_cases hcb : c = b
        · omega
        · obtain ⟨u, v, hu, hv, hs, hlt⟩ := hinv.up b c hbc hcb
          rcases Nat.lt_or_gt_of_ne hcb with h | h
          · omega
          · have := hlt (hord b c u v h hu hv hs); omega
    have hidx : ∀ j : Nat, lim[j]? = some j → lim.idxOf j = j := by
      intro j hj
      have hmem := List.mem_of_getElem? hj
      have hlt := List.idxOf_lt_length_iff.2 hmem
      have hget : lim[lim.idxOf j]? = some j := by rw [List.getElem?_eq_getElem hlt, List.getElem_idxOf hlt]
      have hge := hdown _ _ hget
      have hle : lim.idxOf j ≤ j := by
        by_contra hh
        have hjl : j < lim.length := by omega
        have hf := List.not_of_lt_findIdx (p := (· == j)) (i := j) (xs := lim) (by simpa [List.idxOf] using hh)
        rw [List.getElem?_eq_getElem hjl] at hj
        rw [Option.some.inj hj] at hf
        simp at hf
      omega
    have hnodes : ∀ v, v ∈ (contractGraph lim ⟨nerveNodes X, (generateEdgeData minInt true (nerveNodes X)).pairs.map
        fun p => (⟨p.1.1, p.1.2, p.2.1, if store then some p.2.2 else none⟩ : Edge)⟩).nodes ↔
        ∃ j : Nat, lim[j]? = some j ∧ (nerveNodes X)[j]? = some v := by
      intro v
      unfold contractGraph
      simp only
      rw [List.mem_filterMap]
      constructor
      · rintro ⟨j, hj, hv⟩
        have hj' := (hkept j).1 hj
        rw [hidx j hj'] at hv
        exact ⟨j, hj', hv⟩
      · rintro ⟨j, hj, hv⟩
        exact ⟨j, (hkept j).2 hj, by rw [hidx j hj]; exact hv⟩
    refine ⟨?_, ?_⟩
    · intro v hv w hw hsub
      obtain ⟨j, hj, hvj⟩ := (hnodes v).1 hv
      obtain ⟨i, hi, rfl⟩ := List.getElem_of_mem hw
      obtain ⟨t, z, hit, htt, hz, hsz⟩ := hlimOf i _ (List.getElem?_eq_getElem hi)
      by_cases hjt : j = t
      · subst hjt
        rw [hvj] at hz; cases hz
        exact hsz
      · exact absurd (fun x hx => hsz (hsub hx)) (hmax j t v z hj htt hjt hvj hz)
    · intro w hw
      obtain ⟨i, hi, rfl⟩ := List.getElem_of_mem hw
      obtain ⟨t, z, hit, htt, hz, hsz⟩ := hlimOf i _ (List.getElem?_eq_getElem hi)
      exact ⟨z, (hnodes z).2 ⟨t, htt, hz⟩, hsz⟩

/-- The hypothesis of `C48_attributes_partial` is met by a cover with a real contraction. -/
example : nerve 1 false false 0 exampleCover = .ok (some
      ⟨[⟨0, 0, [0, 1]⟩, ⟨1, 0, [1, 2, 3]⟩, ⟨2, 0, [2, 3]⟩], [⟨0, 1, 1, none⟩, ⟨1, 2, 2, none⟩]⟩) ∧
    ¬ [0, 1] ⊆ [1, 2, 3] ∧ ¬ [0, 1] ⊆ [2, 3] ∧ ¬ [1, 2, 3] ⊆ [2, 3] := by decide +kernel

end Gtda.Props
