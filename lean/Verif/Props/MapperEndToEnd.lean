import Verif.Model.MapperPipeline
import Verif.Props.MapperCluster
import Verif.Props.Cover
import Verif.Props.Nerve

set_option autoImplicit false
set_option linter.unusedSectionVars false

/-!
# C54: a Mapper pipeline from data to graph
-/

namespace Gtda.Props
open Gtda.Py Gtda.Mapper Gtda.Spec

/-- From masks to graph: every sample is in a node, and a node's samples are in its pullback set. -/
theorem graph_of_masks {K W C : Type} [DecidableEq C] (c : Clusterer K W C) (pre : Bool) (hmix : c.isMixin = true) (hmet : c.metrics = [pre] ∨ (c.metrics = [] ∧ pre = false))
    (hlab : ∀ sub, sub ≠ [] → ∃ ls, c.labels sub none = .ok ls ∧ ls.length = sub.length)
    (Y : List (List K)) (hY : Y ≠ []) (hrow : Y.headD [] ≠ []) (hsq : pre = true → ∀ r ∈ Y, r.length = Y.length)
    (masks : List (List Bool)) (hm : ∀ col ∈ masks, col.length = Y.length ∧ true ∈ col) (hcov : ∀ i, i < Y.length → ∃ col ∈ masks, col[i]? = some true)
    (order : List Nat) (horder : ∀ k, k < masks.length → k ∈ order) (minInt : Int) (store : Bool) (fuel : Nat) :
    ∃ G, (parallelClusteringFit c order Y masks none >>= nerve minInt store false fuel) = .ok (some G) ∧
      (∀ i, i < Y.length → ∃ v ∈ G.nodes, i ∈ v.elements) ∧
      (∀ v ∈ G.nodes, v.elements ≠ [] ∧ ∃ col, masks[v.set]? = some col ∧ ∀ i ∈ v.elements, i < Y.length ∧ col[i]? = some true) ∧
      (∀ u ∈ G.nodes, ∀ v ∈ G.nodes, u.set = v.set → ∀ i, i ∈ u.elements → i ∈ v.elements → u = v) := by
  classical
  have hYpos : 0 < Y.length := List.length_pos_of_ne_nil hY
  have hne : masks ≠ [] := by
    obtain ⟨col, hcol, -⟩ := hcov 0 hYpos
    exact List.ne_nil_of_mem hcol
  -- the portions and their labels
  have hport : ∀ col ∈ masks, ∃ sub ls, IsPortion pre Y (membersOf col) sub ∧ (∀ sub', IsPortion pre Y (membersOf col) sub' → sub' = sub) ∧
      c.labels sub none = .ok ls ∧ ls.length = (membersOf col).length := by
    intro col hcol
    have hlt : ∀ i ∈ membersOf col, i < Y.length := fun i hi => by rw [← (hm col hcol).1]; exact membersOf_lt col i hi
    obtain ⟨sub, -, h2⟩ := portion_ok pre Y (membersOf col) hlt hsq
    have hinj : ∀ {α : Type} (a b : List α), a.map some = b.map some → a = b := fun a b h => (List.map_injective_iff.2 (Option.some_injective _)) h
    have huniq : ∀ sub', IsPortion pre Y (membersOf col) sub' → sub' = sub := by
      intro sub' h'
      unfold IsPortion at h2 h'
      cases pre with
      | false =>
        simp only [Bool.false_eq_true, if_false] at h2 h'
        exact hinj _ _ (h'.trans h2.symm)
      | true =>
        simp only [if_true] at h2 h'
        obtain ⟨r1, a1, b1⟩ := h2
        obtain ⟨r2, a2, b2⟩ := h'
        have : r1 = r2 := hinj _ _ (a1.trans a2.symm)
        subst this
        clear a1 a2
        induction b1 generalizing sub' with
        | nil => cases b2; rfl
        | cons h1 _ ih =>
          cases b2 with
          | cons h2 t2 =>
            rw [ih _ t2]
            congr 1
            exact hinj _ _ (h2.trans h1.symm)
    have hsublen : sub.length = (membersOf col).length := by
      unfold IsPortion at h2
      cases pre with
      | false =>
        simp only [Bool.false_eq_true, if_false] at h2
        have := congrArg List.length h2
        simpa using this
      | true =>
        simp only [if_true] at h2
        obtain ⟨r1, a1, b1⟩ := h2
        have := congrArg List.length a1
        rw [← b1.length_eq]
        simpa using this
    have hmne : membersOf col ≠ [] := by
      obtain ⟨i, hi⟩ := List.mem_iff_getElem?.1 (hm col hcol).2
      exact List.ne_nil_of_mem ((mem_membersOf col i).2 hi)
    obtain ⟨ls, h3, h4⟩ := hlab sub (by intro h; rw [h] at hsublen; exact hmne (List.length_eq_zero_iff.1 hsublen.symm))
    exact ⟨sub, ls, h2, huniq, h3, by omega⟩
  obtain ⟨L, hL1, hL2, hL3⟩ := C45_labels c pre hmix hmet Y masks none hY hrow hsq hne (fun col hcol => (hm col hcol).1) (by simp) order horder
    (fun k => match masks[k]? with
      | none => []
      | some col => if h : ∃ sub ls, IsPortion pre Y (membersOf col) sub ∧ c.labels sub none = .ok ls then h.choose_spec.choose else [])
    (by
      intro k col sub v hk hp hv
      have hmem := List.mem_of_getElem? hk
      obtain ⟨sub0, ls0, a1, a2, a3, a4⟩ := hport col hmem
      have hv' : v = none := by simpa [IsWeights] using hv
      subst hv'
      simp only [hk]
      have hex : ∃ sub ls, IsPortion pre Y (membersOf col) sub ∧ c.labels sub none = .ok ls := ⟨sub0, ls0, a1, a3⟩
      rw [dif_pos hex]
      obtain ⟨b1, b2⟩ := hex.choose_spec.choose_spec
      rw [a2 _ hp]
      have hc : hex.choose = sub0 := a2 _ b1
      have b2' : c.labels sub0 none = .ok (hex.choose_spec.choose) := by rw [← hc]; exact b2
      refine ⟨b2', ?_⟩
      rw [a3] at b2'
      simp only [Except.ok.injEq] at b2'
      rw [← b2']; exact a4)
  have hnodup : ∀ s ∈ L, (s.map Prod.fst).Nodup := by
    intro s hs
    obtain ⟨i, hi⟩ := List.mem_iff_getElem?.1 hs
    have hlt : i < Y.length := by rw [← hL2]; exact (List.getElem?_eq_some_iff.1 hi).1
    obtain ⟨pairs, h1, h2, -⟩ := hL3 i hlt
    rw [hi] at h1
    simp only [Option.some.injEq] at h1
    rw [h1, h2]
    exact List.nodup_range.filter _
  have hfull : ∀ i, i < Y.length → ∃ s, L[i]? = some s ∧ s ≠ [] := by
    intro i hi
    obtain ⟨pairs, h1, h2, -⟩ := hL3 i hi
    refine ⟨pairs, h1, ?_⟩
    obtain ⟨col, hcol, hc⟩ := hcov i hi
    obtain ⟨k, hk⟩ := List.mem_iff_getElem?.1 hcol
    have hklt := (List.getElem?_eq_some_iff.1 hk).1
    have : k ∈ pairs.map Prod.fst := by
      rw [h2, List.mem_filter, List.mem_range]
      refine ⟨hklt, ?_⟩
      rw [List.getD_eq_getElem?_getD, hk]; simpa using hc
    intro h; rw [h] at this; simp at this
  obtain ⟨G, hG1, hG2, hG3, hG4, -⟩ := C46_nerve L (fun s hs => (hnodup s hs).of_map _) (by
    obtain ⟨s, h1, h2⟩ := hfull 0 hYpos
    exact ⟨s, List.mem_of_getElem? h1, h2⟩) minInt store fuel
  have hsamples : ∀ (cc : Nat × C) (i : Nat), i ∈ samplesOf L cc ↔ i < Y.length ∧ ∃ s, L[i]? = some s ∧ cc ∈ s := by
    intro cc i
    unfold samplesOf
    rw [List.mem_filter, List.mem_range, hL2]
    constructor
    · rintro ⟨h1, h2⟩
      obtain ⟨s, h3, -⟩ := hfull i h1
      rw [List.getD_eq_getElem?_getD, h3] at h2
      exact ⟨h1, s, h3, by simpa using h2⟩
    · rintro ⟨h1, s, h3, h4⟩
      refine ⟨h1, ?_⟩
      rw [List.getD_eq_getElem?_getD, h3]; simpa using h4
  refine ⟨G, by rw [hL1, ok_bind, hG1], ?_, ?_, ?_⟩
  · intro i hi
    obtain ⟨s, h1, h2⟩ := hfull i hi
    obtain ⟨cc, hcc⟩ := List.exists_mem_of_ne_nil s h2
    obtain ⟨v, hv, hve⟩ := List.mem_map.1 ((hG3 cc).2 ⟨s, List.mem_of_getElem? h1, hcc⟩)
    refine ⟨v, hv, ?_⟩
    rw [hG4 v hv, hve, hsamples]
    exact ⟨hi, s, h1, hcc⟩
  · intro v hv
    have hset : ∃ s ∈ L, (v.set, v.cluster) ∈ s := (hG3 _).1 (List.mem_map.2 ⟨v, hv, rfl⟩)
    obtain ⟨s, hs, hmem⟩ := hset
    obtain ⟨i0, hi0⟩ := List.mem_iff_getElem?.1 hs
    have hi0lt : i0 < Y.length := by rw [← hL2]; exact (List.getElem?_eq_some_iff.1 hi0).1
    have key : ∀ i s', L[i]? = some s' → i < Y.length → (v.set, v.cluster) ∈ s' → ∃ col, masks[v.set]? = some col ∧ col[i]? = some true := by
      intro i s' h1 h2 h3
      obtain ⟨pairs, h4, -, h5⟩ := hL3 i h2
      rw [h1] at h4
      simp only [Option.some.injEq] at h4
      subst h4
      obtain ⟨col, j, hc, hj, -⟩ := (h5 _ _).1 h3
      exact ⟨col, hc, (mem_membersOf col i).1 (List.mem_of_getElem? hj)⟩
    refine ⟨?_, ?_⟩
    · rw [hG4 v hv]
      exact List.ne_nil_of_mem ((hsamples _ i0).2 ⟨hi0lt, s, hi0, hmem⟩)
    · obtain ⟨col, hc, -⟩ := key i0 s hi0 hi0lt hmem
      refine ⟨col, hc, ?_⟩
      intro i hi
      rw [hG4 v hv, hsamples] at hi
      obtain ⟨h1, s', h2, h3⟩ := hi
      obtain ⟨col', hc', h4⟩ := key i s' h2 h1 h3
      rw [hc] at hc'
      simp only [Option.some.injEq] at hc'
      subst hc'
      exact ⟨h1, h4⟩
  · intro u hu v hv huv i hiu hiv
    rw [hG4 u hu, hsamples] at hiu
    rw [hG4 v hv, hsamples] at hiv
    obtain ⟨-, s1, a1, a2⟩ := hiu
    obtain ⟨-, s2, b1, b2⟩ := hiv
    rw [a1] at b1
    simp only [Option.some.injEq] at b1
    subst b1
    have hnd := hnodup s1 (List.mem_of_getElem? a1)
    have hcl : (u.set, u.cluster) = (v.set, v.cluster) := by
      rw [huv] at a2 ⊢
      exact List.inj_on_of_nodup_map hnd a2 b2 rfl
    have := List.inj_on_of_nodup_map hG2 hu hv hcl
    exact this

section
variable {K : Type} [Field K] [LinearOrder K] [IsStrictOrderedRing K] [FloorRing K]

theorem oneDim_masks (p : CoverParams K) (hn : 1 ≤ p.n) (hf0 : 0 < p.f) (hf1 : p.f < 1) (X : List K) (hX : X ≠ []) (hd : p.n = 1 ∨ ∃ x ∈ X, ∃ y ∈ X, x ≠ y) :
    ∃ masks, (coverFitTransform p ⟨none⟩ X).2 = .ok masks ∧ (∀ c ∈ masks, c.length = X.length ∧ true ∈ c) ∧ ∀ i, i < X.length → ∃ c ∈ masks, c[i]? = some true := by
  obtain ⟨b, n, f⟩ := p
  cases b with
  | true =>
    obtain ⟨ivs, masks, len, -, -, h3, -, h5, h6, -⟩ := C41_balanced_cover n hn f hf0 hf1 ⟨none⟩ X hX hd
    refine ⟨masks, h3, ?_, h6⟩
    intro c hc
    obtain ⟨h7, k, -, h8⟩ := (h5 c).1 hc
    exact ⟨by rw [h8]; simp, h7⟩
  | false =>
    obtain ⟨x, t, rfl⟩ : ∃ x t, X = x :: t := by
      cases X with
      | nil => exact absurd rfl hX
      | cons a t => exact ⟨a, t, rfl⟩
    obtain ⟨m1, m2⟩ := foldl_min_spec t x
    obtain ⟨M1, M2⟩ := foldl_max_spec t x
    obtain ⟨ivs, len, h1, -, -, -, -, h2, -⟩ := C40_uniform_cover n hn f hf0 hf1 (x :: t) _ _ ⟨m1, m2⟩ ⟨M1, M2⟩ (by
      rcases hd with h | ⟨a, ha, b, hb, hab⟩
      · exact Or.inr h
      · left
        rcases lt_or_gt_of_ne hab with h | h
        · exact lt_of_le_of_lt (m2 a ha) (lt_of_lt_of_le h (M2 b hb))
        · exact lt_of_le_of_lt (m2 b hb) (lt_of_lt_of_le h (M2 a ha)))
    obtain ⟨masks, h3, h4⟩ := C40_transform_masks ivs (x :: t)
    refine ⟨masks, ?_, fun c hc => ⟨((h4 c).1 hc).1, ((h4 c).1 hc).2.1⟩, ?_⟩
    · simp only [coverFitTransform, h1, Bool.false_eq_true, if_false]
      simpa [coverTransform] using h3
    · intro i hi
      obtain ⟨I, hI, hx⟩ := h2 ((x :: t)[i])
      refine ⟨(x :: t).map (inIval I), ?_, ?_⟩
      · rw [h4]
        have hval : ∀ (j : Nat) y, (x :: t)[j]? = some y → (((x :: t).map (inIval I))[j]? = some true ↔ InOpen I y) := by
          intro j y hy
          rw [List.getElem?_map, hy]
          simp [inIval_iff]
        refine ⟨by simp, ?_, I, hI, hval⟩
        exact List.mem_of_getElem? ((hval i _ (List.getElem?_eq_getElem hi)).2 hx)
      · rw [List.getElem?_map, List.getElem?_eq_getElem hi]
        simp only [Option.map_some, Option.some.injEq]
        exact (inIval_iff _ _).2 hx

theorem column_length (V : List (List K)) (d : Nat) (hV : ∀ r ∈ V, r.length = d) (j : Nat) (hj : j < d) : (column V j).length = V.length := by
  unfold column
  induction V with
  | nil => rfl
  | cons r t ih =>
    have hr := hV r (by simp)
    rw [List.filterMap_cons_some (b := r[j]'(by omega)) (by simp), List.length_cons, ih (fun r hr => hV r (by simp [hr])), List.length_cons]

/-- **C54.** Let the scaler, the filter function and the clustering preprocessing be any functions that return one row for each sample (`V`: the filter values, with `d ≥ 1`
columns; one column for a `OneDimensionalCover`), let the cover be uniform or balanced, with `overlap_frac` in `(0, 1)` and either one interval or no constant filter column,
and let the clusterer give a label to every sample of each portion. Then the Mapper pipeline returns a graph in which every sample is an element of some node; the elements
of a node all belong to one pullback set, the one recorded with the node, and two nodes of the same pullback set have no common element. -/
theorem C54_mapper_partial {W C : Type} [DecidableEq C] (scaler filterFunc prep : List (List K) → PyM (List (List K))) (cover : CoverKind K) (p : CoverParams K)
    (d : Nat) (hcover : (cover = .oneDimensional p ∧ d = 1) ∨ (cover = .cubical p ∧ 1 ≤ d)) (hn : 1 ≤ p.n) (hf0 : 0 < p.f) (hf1 : p.f < 1)
    (X S V Y : List (List K)) (hX : X ≠ []) (hS : scaler X = .ok S) (hV : filterFunc S = .ok V) (hY : prep X = .ok Y)
    (hVl : V.length = X.length) (hVd : ∀ r ∈ V, r.length = d) (hYl : Y.length = X.length) (hrow : Y.headD [] ≠ [])
    (hconst : p.n = 1 ∨ ∀ j, j < d → ∃ r ∈ V, ∃ s ∈ V, r[j]? ≠ s[j]?)
    (c : Clusterer K W C) (pre : Bool) (hmix : c.isMixin = true) (hmet : c.metrics = [pre] ∨ (c.metrics = [] ∧ pre = false))
    (hsq : pre = true → ∀ r ∈ Y, r.length = Y.length) (hlab : ∀ sub, sub ≠ [] → ∃ ls, c.labels sub none = .ok ls ∧ ls.length = sub.length)
    (order : List Nat) (minInt : Int) (store : Bool) (fuel : Nat) :
    ∃ masks : List (List Bool), coverKindFitTransform cover V = .ok masks ∧ (∀ col ∈ masks, col.length = X.length) ∧
      ((∀ k, k < masks.length → k ∈ order) →
        ∃ G, mapperFitTransform scaler filterFunc prep cover c order minInt store false fuel X = .ok (some G) ∧
          (∀ i, i < X.length → ∃ v ∈ G.nodes, i ∈ v.elements) ∧
          (∀ v ∈ G.nodes, v.elements ≠ [] ∧ ∃ col, masks[v.set]? = some col ∧ ∀ i ∈ v.elements, i < X.length ∧ col[i]? = some true) ∧
          (∀ u ∈ G.nodes, ∀ v ∈ G.nodes, u.set = v.set → ∀ i, i ∈ u.elements → i ∈ v.elements → u = v)) := by
  have hXpos : 0 < X.length := List.length_pos_of_ne_nil hX
  have hVne : V ≠ [] := by intro h; rw [h] at hVl; simp at hVl; omega
  have hhead : (V.headD []).length = d := by
    cases V with
    | nil => exact absurd rfl hVne
    | cons a t => exact hVd a (by simp)
  have hcoll : ∀ j, j < d → (column V j).length = V.length := fun j hj => column_length V d hVd j hj
  have hcolget : ∀ (j : Nat) r, r ∈ V → j < d → ∃ x ∈ column V j, r[j]? = some x := by
    intro j r hr hj
    have : j < r.length := by rw [hVd r hr]; exact hj
    exact ⟨r[j], List.mem_filterMap.2 ⟨r, hr, by simp⟩, by simp⟩
  have hcolne : ∀ j, j < d → p.n = 1 ∨ ∃ x ∈ column V j, ∃ y ∈ column V j, x ≠ y := by
    intro j hj
    rcases hconst with h | h
    · exact Or.inl h
    · right
      obtain ⟨r, hr, s, hs, hrs⟩ := h j hj
      obtain ⟨x, hx, hx'⟩ := hcolget j r hr hj
      obtain ⟨y, hy, hy'⟩ := hcolget j s hs hj
      exact ⟨x, hx, y, hy, fun e => hrs (by rw [hx', hy', e])⟩
  have hmasks : ∃ masks : List (List Bool), coverKindFitTransform cover V = .ok masks ∧ (∀ col ∈ masks, col.length = V.length ∧ true ∈ col) ∧
      ∀ i, i < V.length → ∃ col ∈ masks, col[i]? = some true := by
    unfold coverKindFitTransform
    have hd1 : 1 ≤ d := by rcases hcover with ⟨-, h⟩ | ⟨-, h⟩ <;> omega
    have hno : ¬ (V.length = 0 ∨ (V.headD []).length = 0) := by rw [hhead]; omega
    rw [if_neg hno]
    rcases hcover with ⟨rfl, rfl⟩ | ⟨rfl, -⟩
    · have hc0 := hcoll 0 (by omega)
      obtain ⟨masks, h1, h2, h3⟩ := oneDim_masks p hn hf0 hf1 (column V 0) (by intro h; rw [h] at hc0; simp at hc0; omega) (hcolne 0 (by omega))
      rw [hc0] at h2 h3
      exact ⟨masks, by simp only [hhead, if_true, h1], h2, h3⟩
    · have hcols : columns V = (List.range d).map (column V) := by unfold columns; rw [hhead]
      have hmem : ∀ col ∈ columns V, ∃ j, j < d ∧ column V j = col := by
        intro col hcol
        rw [hcols] at hcol
        obtain ⟨j, hj, rfl⟩ := List.mem_map.1 hcol
        exact ⟨j, List.mem_range.1 hj, rfl⟩
      have hcne : columns V ≠ [] := by rw [hcols]; intro h; have := congrArg List.length h; simp at this; omega
      obtain ⟨ivss, -, -, h3, masks, h4, h5⟩ := C44_fit_transform p hn hf0 hf1 ⟨none⟩ V.length (columns V) hcne
        (fun col hcol => by obtain ⟨j, hj, rfl⟩ := hmem col hcol; exact hcoll j hj) (by omega) (by
          by_cases h1 : p.n = 1
          · exact Or.inl h1
          · right
            intro col hcol
            obtain ⟨j, hj, rfl⟩ := hmem col hcol
            exact (hcolne j hj).resolve_left h1)
      have hivl : ivss.length = (columns V).length := by
        by_contra hcon
        have : cubicalTransform p ⟨some (ivss.map fun ivs => ⟨some ivs⟩)⟩ V.length (columns V) = .error .valueError := by
          unfold cubicalTransform
          simp only [List.length_map]
          rw [if_pos (fun h => hcon h.symm)]
        rw [h4] at this
        cases this
      have hine : ivss ≠ [] := by intro h; rw [h] at hivl; exact hcne (List.length_eq_zero_iff.1 hivl.symm)
      obtain ⟨masks', g1, -, g2, g3⟩ := C44_boxes p ivss V.length (columns V) hine hivl.symm (fun col hcol => by obtain ⟨j, hj, rfl⟩ := hmem col hcol; exact hcoll j hj)
      rw [h4] at g1
      simp only [Except.ok.injEq] at g1
      subst g1
      exact ⟨masks, h5, fun col hcol => ⟨((g2 col).1 hcol).1, ((g2 col).1 hcol).2.1⟩, g3 h3⟩
  obtain ⟨masks, h1, h2, h3⟩ := hmasks
  refine ⟨masks, h1, fun col hcol => by rw [(h2 col hcol).1, hVl], ?_⟩
  intro horder
  obtain ⟨G, g1, g2, g3, g4⟩ := graph_of_masks c pre hmix hmet hlab Y (by intro h; rw [h] at hYl; simp at hYl; omega) hrow hsq masks
    (by rw [hYl, ← hVl]; exact h2) (by rw [hYl, ← hVl]; exact h3) order horder minInt store fuel
  rw [hYl] at g2 g3
  refine ⟨G, ?_, g2, g3, g4⟩
  unfold mapperFitTransform
  rw [hY, ok_bind, hS, ok_bind, hV, ok_bind, h1, ok_bind]
  exact g1

end

/-- A clusterer for examples: all samples of a portion form one cluster. -/
def oneCluster : Clusterer ℚ Nat Nat := ⟨true, [], false, fun sub _ => .ok (List.replicate sub.length 0)⟩

/-- Non-vacuity of `C54_mapper_partial`: four points on a line, two intervals, identity scaler, filter and preprocessing. -/
example : mapperFitTransform (K := ℚ) .ok .ok .ok (.oneDimensional ⟨false, 2, 1 / 2⟩) oneCluster [0, 1] 1 true false 0 [[0], [4], [5], [9]] =
    .ok (some ⟨[⟨0, 0, [0, 1, 2]⟩, ⟨1, 0, [1, 2, 3]⟩], [⟨0, 1, 2, some [1, 2]⟩]⟩) := by decide +kernel

example : ∀ sub : List (List ℚ), sub ≠ [] → ∃ ls, oneCluster.labels sub none = .ok ls ∧ ls.length = sub.length := fun sub _ => ⟨_, rfl, by simp⟩

/-- **C54 with `contract_nodes=True`: false.** Samples `0, 6, 10` with three uniform intervals (overlap `1/2`) have pullback sets `{0}`, `{1}`, `{1, 2}`. With contraction
the node of the last set gets the attributes of the one it absorbs, and sample `2` is in no node. -/
theorem C54_refuted_contracted :
    ∃ G, mapperFitTransform (K := ℚ) .ok .ok .ok (.oneDimensional ⟨false, 3, 1 / 2⟩) oneCluster [0, 1, 2] 1 false true 10 [[0], [6], [10]] = .ok (some G) ∧
      ∀ v ∈ G.nodes, 2 ∉ v.elements := by
  refine ⟨⟨[⟨0, 0, [0]⟩, ⟨1, 0, [1]⟩], []⟩, by decide +kernel, by decide⟩

end Gtda.Props
