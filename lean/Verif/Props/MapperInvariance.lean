import Verif.Spec.MapperInvariance
import Verif.Props.MapperEndToEnd

set_option autoImplicit false
set_option linter.unusedSectionVars false

/-!
# C128: what the Mapper graph does not depend on

The order of the samples, increasing transformations of the filter values, `min_intersection` (apart from the edges it removes) and `store_edge_elements` (apart from
the attribute it adds).
-/

namespace Gtda.Props.MapperInv
open Gtda.Py Gtda.Mapper Gtda.Spec

/-! ### Lists -/

theorem picks_iff {α : Type} (l : List α) (S : List Nat) (r : List α) :
    Picks l S r ↔ r.length = S.length ∧ ∀ a s : Nat, S[a]? = some s → ∃ x, l[s]? = some x ∧ r[a]? = some x := by
  unfold Picks
  constructor
  · intro h
    have hl : r.length = S.length := by simpa using congrArg List.length h
    refine ⟨hl, fun (a s : Nat) hs => ?_⟩
    have h1 := congrArg (·[a]?) h
    simp only [List.getElem?_map, hs, Option.map_some] at h1
    have ha : a < r.length := by rw [hl]; exact (List.getElem?_eq_some_iff.1 hs).1
    rw [List.getElem?_eq_getElem ha, Option.map_some, Option.some.injEq] at h1
    exact ⟨r[a], h1.symm, List.getElem?_eq_getElem ha⟩
  · rintro ⟨hl, h⟩
    apply List.ext_getElem?
    intro a
    rw [List.getElem?_map, List.getElem?_map]
    by_cases ha : a < S.length
    · obtain ⟨x, h1, h2⟩ := h a S[a] (List.getElem?_eq_getElem ha)
      rw [h2, List.getElem?_eq_getElem ha, Option.map_some, Option.map_some, h1]
    · rw [List.getElem?_eq_none (by omega), List.getElem?_eq_none (by omega)]; rfl

/-- Picking `S'` from the reordered list is picking `τ` from the part `S`, when `σ` takes `S'` to `S` along `τ`. -/
theorem picks_comp {α : Type} {l l' r r' : List α} {S S' σ τ : List Nat} (h1 : Picks l S r) (h2 : Picks l σ l') (h3 : Picks l' S' r')
    (hl : τ.length = S'.length) (ht : ∀ a t : Nat, τ[a]? = some t → ∃ j i, S'[a]? = some j ∧ σ[j]? = some i ∧ S[t]? = some i) : Picks r τ r' := by
  rw [picks_iff] at h1 h2 h3 ⊢
  refine ⟨by rw [h3.1, hl], fun (a t : Nat) hat => ?_⟩
  obtain ⟨j, i, b1, b2, b3⟩ := ht a t hat
  obtain ⟨x, c1, c2⟩ := h3.2 a j b1
  obtain ⟨y, c3, c4⟩ := h2.2 j i b2
  obtain ⟨z, c5, c6⟩ := h1.2 t i b3
  rw [c1] at c4; rw [c3] at c5
  simp only [Option.some.injEq] at c4 c5
  exact ⟨x, by rw [c6, ← c5, c4], c2⟩

theorem isPortion_iff {K : Type} (X : List (List K)) (S : List Nat) (sub : List (List K)) :
    IsPortion true X S sub ↔ sub.length = S.length ∧ ∀ a s : Nat, S[a]? = some s → ∃ row r, X[s]? = some row ∧ sub[a]? = some r ∧ Picks row S r := by
  unfold IsPortion
  rw [if_pos rfl]
  constructor
  · rintro ⟨rows, h1, h2⟩
    rw [picks_iff] at h1
    refine ⟨by rw [← h2.length_eq, h1.1], fun (a s : Nat) hs => ?_⟩
    obtain ⟨row, c1, c2⟩ := h1.2 a s hs
    have ha : a < rows.length := (List.getElem?_eq_some_iff.1 c2).1
    have ha' : a < sub.length := by rw [← h2.length_eq]; exact ha
    refine ⟨row, sub[a], c1, List.getElem?_eq_getElem ha', ?_⟩
    have := (List.forall₂_iff_get.1 h2).2 a ha ha'
    simp only [List.get_eq_getElem] at this
    rwa [(List.getElem?_eq_some_iff.1 c2).2] at this
  · rintro ⟨hl, h⟩
    refine ⟨S.map fun s => (X[s]?).getD [], ?_, ?_⟩
    · rw [picks_iff]
      refine ⟨by simp, fun (a s : Nat) hs => ?_⟩
      obtain ⟨row, r, c1, -, -⟩ := h a s hs
      exact ⟨row, c1, by rw [List.getElem?_map, hs, Option.map_some, c1]; rfl⟩
    · rw [List.forall₂_iff_get]
      refine ⟨by simp [hl], fun a ha ha' => ?_⟩
      have haS : a < S.length := by simpa using ha
      obtain ⟨row, r, c1, c2, c3⟩ := h a S[a] (List.getElem?_eq_getElem haS)
      simp only [List.get_eq_getElem, List.getElem_map, c1, Option.getD_some]
      rwa [(List.getElem?_eq_some_iff.1 c2).2]

theorem portion_comp {K : Type} {pre : Bool} {X X' sub sub' : List (List K)} {S S' σ τ : List Nat} (h1 : IsPortion pre X S sub) (h2 : IsPortion pre X σ X')
    (h3 : IsPortion pre X' S' sub') (hl : τ.length = S'.length)
    (ht : ∀ a t : Nat, τ[a]? = some t → ∃ j i, S'[a]? = some j ∧ σ[j]? = some i ∧ S[t]? = some i) : IsPortion pre sub τ sub' := by
  cases pre with
  | false =>
    simp only [IsPortion, Bool.false_eq_true, if_false] at h1 h2 h3 ⊢
    exact picks_comp h1 h2 h3 hl ht
  | true =>
    rw [isPortion_iff] at h1 h2 h3 ⊢
    refine ⟨by rw [h3.1, hl], fun (a t : Nat) hat => ?_⟩
    obtain ⟨j, i, b1, b2, b3⟩ := ht a t hat
    obtain ⟨row', r', c1, c2, c3⟩ := h3.2 a j b1
    obtain ⟨row, q, d1, d2, d3⟩ := h2.2 j i b2
    obtain ⟨row1, r, e1, e2, e3⟩ := h1.2 t i b3
    rw [c1] at d2; rw [d1] at e1
    simp only [Option.some.injEq] at d2 e1
    subst d2 e1
    exact ⟨r, r', e2, c2, picks_comp e3 d3 c3 hl ht⟩

theorem isPortion_length {K : Type} {pre : Bool} {X sub : List (List K)} {S : List Nat} (h : IsPortion pre X S sub) : sub.length = S.length := by
  cases pre with
  | false =>
    simp only [IsPortion, Bool.false_eq_true, if_false] at h
    exact ((picks_iff _ _ _).1 h).1
  | true => exact ((isPortion_iff _ _ _).1 h).1

theorem isPortion_unique {K : Type} {pre : Bool} {X sub sub' : List (List K)} {S : List Nat} (h : IsPortion pre X S sub) (h' : IsPortion pre X S sub') : sub' = sub := by
  have key : ∀ {α : Type} {l : List α} {r r' : List α}, Picks l S r → Picks l S r' → r' = r := by
    intro α l r r' h1 h2
    exact (List.map_injective_iff.2 (Option.some_injective _)) (h2.trans h1.symm)
  cases pre with
  | false =>
    simp only [IsPortion, Bool.false_eq_true, if_false] at h h'
    exact key h h'
  | true =>
    rw [isPortion_iff] at h h'
    apply List.ext_getElem?
    intro a
    by_cases ha : a < S.length
    · obtain ⟨row, r, c1, c2, c3⟩ := h.2 a _ (List.getElem?_eq_getElem ha)
      obtain ⟨row', r', d1, d2, d3⟩ := h'.2 a _ (List.getElem?_eq_getElem ha)
      rw [c1] at d1
      simp only [Option.some.injEq] at d1
      subst d1
      rw [c2, d2, key c3 d3]
    · have h1 := h.1
      have h2 := h'.1
      rw [List.getElem?_eq_none (by omega), List.getElem?_eq_none (by omega)]

/-- A boolean column after reordering. -/
def pickB (σ : List Nat) (col : List Bool) : List Bool := σ.map fun i => col.getD i false

theorem pickB_get (σ : List Nat) (col : List Bool) (a i : Nat) (h : σ[a]? = some i) : (pickB σ col)[a]? = some true ↔ col[i]? = some true := by
  unfold pickB
  rw [List.getElem?_map, h, Option.map_some, List.getD_eq_getElem?_getD]
  cases col[i]? with
  | none => simp
  | some b => simp

theorem reorders_length {n : Nat} {σ : List Nat} (h : Reorders n σ) : σ.length = n := by simpa using h.length_eq

theorem reorders_mem {n : Nat} {σ : List Nat} (h : Reorders n σ) (i : Nat) : i ∈ σ ↔ i < n := by
  rw [h.mem_iff, List.mem_range]

theorem reorders_lt {n : Nat} {σ : List Nat} (h : Reorders n σ) {a i : Nat} (ha : σ[a]? = some i) : a < n ∧ i < n :=
  ⟨by rw [← reorders_length h]; exact (List.getElem?_eq_some_iff.1 ha).1, (reorders_mem h i).1 (List.mem_of_getElem? ha)⟩

theorem reorders_nodup {n : Nat} {σ : List Nat} (h : Reorders n σ) : σ.Nodup := h.nodup_iff.2 List.nodup_range

theorem reorders_inj {n : Nat} {σ : List Nat} (h : Reorders n σ) {a b i : Nat} (ha : σ[a]? = some i) (hb : σ[b]? = some i) : a = b := by
  have h1 := List.getElem?_eq_some_iff.1 ha
  have h2 := List.getElem?_eq_some_iff.1 hb
  obtain ⟨h1l, h1⟩ := h1
  obtain ⟨h2l, h2⟩ := h2
  exact ((reorders_nodup h).getElem_inj_iff).1 (h1.trans h2.symm)

theorem reorders_get {n : Nat} {σ : List Nat} (h : Reorders n σ) {a : Nat} (ha : a < n) : ∃ i, σ[a]? = some i :=
  ⟨_, List.getElem?_eq_getElem (by rw [reorders_length h]; exact ha)⟩

theorem reorders_surj {n : Nat} {σ : List Nat} (h : Reorders n σ) {i : Nat} (hi : i < n) : ∃ a : Nat, σ[a]? = some i :=
  List.mem_iff_getElem?.1 ((reorders_mem h i).2 hi)

/-- The reordering of the members of a set induced by a reordering of all samples. -/
theorem induced {n : Nat} {σ : List Nat} (h : Reorders n σ) (col : List Bool) (hc : col.length = n) :
    ∃ τ : List Nat, Reorders (membersOf col).length τ ∧ τ.length = (membersOf (pickB σ col)).length ∧
      ∀ a t : Nat, τ[a]? = some t → ∃ j i, (membersOf (pickB σ col))[a]? = some j ∧ σ[j]? = some i ∧ (membersOf col)[t]? = some i := by
  have hmem : ∀ j, j ∈ membersOf (pickB σ col) ↔ ∃ i, σ[j]? = some i ∧ i ∈ membersOf col := by
    intro j
    rw [mem_membersOf]
    constructor
    · intro hj
      have hlt : j < σ.length := by
        have := (List.getElem?_eq_some_iff.1 hj).1
        unfold pickB at this
        simpa using this
      exact ⟨σ[j], List.getElem?_eq_getElem hlt, (mem_membersOf _ _).2 ((pickB_get σ col j _ (List.getElem?_eq_getElem hlt)).1 hj)⟩
    · rintro ⟨i, h1, h2⟩
      exact (pickB_get σ col j i h1).2 ((mem_membersOf _ _).1 h2)
  refine ⟨(membersOf (pickB σ col)).map fun j => (membersOf col).idxOf (σ.getD j 0), ?_, by simp, ?_⟩
  · -- it has no repetitions and reaches every position
    unfold Reorders
    have hgetD : ∀ j i : Nat, σ[j]? = some i → σ.getD j 0 = i := fun j i hj => by rw [List.getD_eq_getElem?_getD, hj]; rfl
    rw [List.perm_ext_iff_of_nodup]
    · intro t
      rw [List.mem_map, List.mem_range]
      constructor
      · rintro ⟨j, hj, rfl⟩
        obtain ⟨i, h1, h2⟩ := (hmem j).1 hj
        rw [hgetD j i h1]
        exact List.idxOf_lt_length_iff.2 h2
      · intro ht
        have him := List.getElem_mem ht
        have hin : (membersOf col)[t] < n := by rw [← hc]; exact membersOf_lt col _ him
        obtain ⟨j, hj⟩ := reorders_surj h hin
        refine ⟨j, (hmem j).2 ⟨_, hj, him⟩, ?_⟩
        rw [hgetD j _ hj]
        exact (membersOf_nodup col).idxOf_getElem t ht
    · apply List.Nodup.map_on _ (membersOf_nodup _)
      intro j hj j' hj' he
      obtain ⟨i, h1, h2⟩ := (hmem j).1 hj
      obtain ⟨i', h1', h2'⟩ := (hmem j').1 hj'
      rw [hgetD j i h1, hgetD j' i' h1'] at he
      have := List.idxOf_inj h2 |>.1 he
      subst this
      exact reorders_inj h h1 h1'
    · exact List.nodup_range
  · intro a t hat
    rw [List.getElem?_map, Option.map_eq_some_iff] at hat
    obtain ⟨j, hj, rfl⟩ := hat
    obtain ⟨i, h1, h2⟩ := (hmem j).1 (List.mem_of_getElem? hj)
    refine ⟨j, i, hj, h1, ?_⟩
    have hg : σ.getD j 0 = i := by rw [List.getD_eq_getElem?_getD, h1]; rfl
    rw [hg, List.getElem?_eq_getElem (List.idxOf_lt_length_iff.2 h2), List.getElem_idxOf]

/-! ### The structure of a graph built from masks -/

/-- The samples two nodes share. -/
def sharedOf {C : Type} (n : Nat) (u v : Node Nat C) : List Nat := (List.range n).filter fun x => x ∈ u.elements ∧ x ∈ v.elements

/-- A description of the graph of given masks and labels. -/
structure Structure {C : Type} (n : Nat) (masks : List (List Bool)) (lab : Nat → List C) (minInt : Int) (store : Bool) (G : Graph Nat C) : Prop where
  elements : ∀ v ∈ G.nodes, ∀ i, i ∈ v.elements ↔ ∃ (col : List Bool) (j : Nat), masks[v.set]? = some col ∧ (membersOf col)[j]? = some i ∧ (lab v.set)[j]? = some v.cluster
  sorted : ∀ v ∈ G.nodes, v.elements = (List.range n).filter fun x => x ∈ v.elements
  nonempty : ∀ v ∈ G.nodes, v.elements ≠ []
  found : ∀ (k : Nat) (col : List Bool) (j i : Nat) (l : C), masks[k]? = some col → (membersOf col)[j]? = some i → (lab k)[j]? = some l → ∃ v ∈ G.nodes, v.set = k ∧ v.cluster = l
  nodup : (G.nodes.map fun v => (v.set, v.cluster)).Nodup
  ends : ∀ e ∈ G.edges, e.src < e.dst ∧ e.dst < G.nodes.length
  edge : ∀ (i j : Nat) u v, G.nodes[i]? = some u → G.nodes[j]? = some v → ∀ (w : Nat) (els : Option (List Nat)),
    (∃ e ∈ G.edges, Ends e.src e.dst i j ∧ e.weight = w ∧ e.elements = els) ↔
      u.set ≠ v.set ∧ 1 ≤ (sharedOf n u v).length ∧ minInt ≤ ((sharedOf n u v).length : Int) ∧ w = (sharedOf n u v).length ∧
        els = if store then some (sharedOf n u v) else none

theorem sharedOf_comm {C : Type} (n : Nat) (u v : Node Nat C) : sharedOf n u v = sharedOf n v u := by
  unfold sharedOf
  congr 1
  funext x
  simp only [and_comm]

theorem structure_of_masks {K W C : Type} [DecidableEq C] (c : Clusterer K W C) (pre : Bool) (hmix : c.isMixin = true) (hmet : c.metrics = [pre] ∨ (c.metrics = [] ∧ pre = false))
    (Y : List (List K)) (hY : Y ≠ []) (hrow : Y.headD [] ≠ []) (hsq : pre = true → ∀ r ∈ Y, r.length = Y.length)
    (masks : List (List Bool)) (hm : ∀ col ∈ masks, col.length = Y.length ∧ true ∈ col) (hne : masks ≠ []) (lab : Nat → List C)
    (hlab : ∀ (k : Nat) col sub, masks[k]? = some col → IsPortion pre Y (membersOf col) sub → c.labels sub none = .ok (lab k) ∧ (lab k).length = (membersOf col).length)
    (order : List Nat) (horder : ∀ k, k < masks.length → k ∈ order) (minInt : Int) (store : Bool) (fuel : Nat) :
    ∃ G, (parallelClusteringFit c order Y masks none >>= nerve minInt store false fuel) = .ok (some G) ∧ Structure Y.length masks lab minInt store G := by
  classical
  obtain ⟨L, hL1, hL2, hL3⟩ := C45_labels c pre hmix hmet Y masks none hY hrow hsq hne (fun col hcol => (hm col hcol).1) (by simp) order horder lab
    (by
      intro k col sub v hk hp hv
      have hv' : v = none := by simpa [IsWeights] using hv
      subst hv'
      exact hlab k col sub hk hp)
  have hnodup : ∀ s ∈ L, (s.map Prod.fst).Nodup := by
    intro s hs
    obtain ⟨i, hi⟩ := List.mem_iff_getElem?.1 hs
    have hlt : i < Y.length := by rw [← hL2]; exact (List.getElem?_eq_some_iff.1 hi).1
    obtain ⟨pairs, h1, h2, -⟩ := hL3 i hlt
    rw [hi] at h1
    simp only [Option.some.injEq] at h1
    rw [h1, h2]
    exact List.nodup_range.filter _
  -- a sample with a label
  obtain ⟨col0, hcol0⟩ := List.exists_mem_of_ne_nil masks hne
  obtain ⟨k0, hk0⟩ := List.mem_iff_getElem?.1 hcol0
  obtain ⟨i0, hi0⟩ := List.mem_iff_getElem?.1 (hm col0 hcol0).2
  have hi0lt : i0 < Y.length := by rw [← (hm col0 hcol0).1]; exact (List.getElem?_eq_some_iff.1 hi0).1
  obtain ⟨G, hG1, hG2, hG3, hG4, hG5, hG6, hG7⟩ := C46_nerve L (fun s hs => (hnodup s hs).of_map _) (by
    obtain ⟨pairs, h1, h2, -⟩ := hL3 i0 hi0lt
    refine ⟨pairs, List.mem_of_getElem? h1, ?_⟩
    have : k0 ∈ pairs.map Prod.fst := by
      rw [h2, List.mem_filter, List.mem_range]
      refine ⟨(List.getElem?_eq_some_iff.1 hk0).1, ?_⟩
      rw [List.getD_eq_getElem?_getD, hk0]; simpa using hi0
    intro h; rw [h] at this; simp at this) minInt store fuel
  have hgetD : ∀ (i : Nat) (cc : Nat × C), i < Y.length → (cc ∈ L.getD i [] ↔ ∃ (col : List Bool) (j : Nat), masks[cc.1]? = some col ∧ (membersOf col)[j]? = some i ∧ (lab cc.1)[j]? = some cc.2) := by
    intro i cc hi
    obtain ⟨pairs, h1, -, h3⟩ := hL3 i hi
    rw [List.getD_eq_getElem?_getD, h1]
    exact h3 cc.1 cc.2
  have hlt : ∀ (k : Nat) (col : List Bool) (j i : Nat), masks[k]? = some col → (membersOf col)[j]? = some i → i < Y.length := by
    intro k col j i h1 h2
    rw [← (hm col (List.mem_of_getElem? h1)).1]
    exact membersOf_lt col i (List.mem_of_getElem? h2)
  have hsamples : ∀ (cc : Nat × C) (i : Nat), i ∈ samplesOf L cc ↔ ∃ (col : List Bool) (j : Nat), masks[cc.1]? = some col ∧ (membersOf col)[j]? = some i ∧ (lab cc.1)[j]? = some cc.2 := by
    intro cc i
    unfold samplesOf
    rw [List.mem_filter, List.mem_range, hL2]
    constructor
    · rintro ⟨h1, h2⟩
      exact (hgetD i cc h1).1 (by simpa using h2)
    · rintro ⟨col, j, h1, h2, h3⟩
      have h := hlt cc.1 col j i h1 h2
      refine ⟨h, ?_⟩
      simpa using (hgetD i cc h).2 ⟨col, j, h1, h2, h3⟩
  have hshared : ∀ u ∈ G.nodes, ∀ v ∈ G.nodes, sharedSamples L (u.set, u.cluster) (v.set, v.cluster) = sharedOf Y.length u v := by
    intro u hu v hv
    unfold sharedSamples sharedOf
    rw [hL2]
    apply List.filter_congr
    intro x hx
    rw [hG4 u hu, hG4 v hv, decide_eq_decide, hsamples, hsamples, hgetD _ _ (List.mem_range.1 hx), hgetD _ _ (List.mem_range.1 hx)]
  refine ⟨G, by rw [hL1, ok_bind, hG1], ?_, ?_, ?_, ?_, hG2, hG6, ?_⟩
  · intro v hv i
    rw [hG4 v hv, hsamples]
  · intro v hv
    conv_lhs => rw [hG4 v hv]
    unfold samplesOf
    rw [hL2]
    apply List.filter_congr
    intro x hx
    rw [hG4 v hv, decide_eq_decide, hsamples, hgetD _ _ (List.mem_range.1 hx)]
  · intro v hv
    obtain ⟨s, hs, hmem⟩ := (hG3 _).1 (List.mem_map.2 ⟨v, hv, rfl⟩)
    obtain ⟨i, hi⟩ := List.mem_iff_getElem?.1 hs
    have hil : i < Y.length := by rw [← hL2]; exact (List.getElem?_eq_some_iff.1 hi).1
    have : i ∈ v.elements := by
      rw [hG4 v hv, hsamples]
      refine (hgetD i _ hil).1 ?_
      rw [List.getD_eq_getElem?_getD, hi]; exact hmem
    exact List.ne_nil_of_mem this
  · intro k col j i l h1 h2 h3
    have hil := hlt k col j i h1 h2
    have hmem := (hgetD i (k, l) hil).2 ⟨col, j, h1, h2, h3⟩
    obtain ⟨pairs, g1, -, -⟩ := hL3 i hil
    rw [List.getD_eq_getElem?_getD, g1] at hmem
    obtain ⟨v, hv, hve⟩ := List.mem_map.1 ((hG3 (k, l)).2 ⟨pairs, List.mem_of_getElem? g1, hmem⟩)
    simp only [Prod.mk.injEq] at hve
    exact ⟨v, hv, hve⟩
  · intro i j u v hu hv w els
    have hum := List.mem_of_getElem? hu
    have hvm := List.mem_of_getElem? hv
    have main : ∀ (i j : Nat) (u v : Node Nat C), G.nodes[i]? = some u → G.nodes[j]? = some v → i < j → ((∃ e ∈ G.edges, (e.src = i ∧ e.dst = j) ∧ e.weight = w ∧ e.elements = els) ↔
        u.set ≠ v.set ∧ 1 ≤ (sharedOf Y.length u v).length ∧ minInt ≤ ((sharedOf Y.length u v).length : Int) ∧ w = (sharedOf Y.length u v).length ∧
          els = if store then some (sharedOf Y.length u v) else none) := by
      intro i j u v hu hv hij
      have hum := List.mem_of_getElem? hu
      have hvm := List.mem_of_getElem? hv
      constructor
      · rintro ⟨e, he, hsd, hw, hel⟩
        obtain ⟨h1, h2, h3, h4⟩ := (hG7 i j u v hu hv hij e).1 ⟨he, hsd⟩
        rw [hshared u hum v hvm] at h2 h3 h4
        rw [h4] at hw hel
        exact ⟨h1, h2, h3, hw.symm, hel.symm⟩
      · rintro ⟨h1, h2, h3, h4, h5⟩
        have := (hG7 i j u v hu hv hij ⟨i, j, w, els⟩).2 ⟨h1, by
          dsimp only
          rw [hshared u hum v hvm]
          exact ⟨h2, h3, by rw [h4, h5]⟩⟩
        exact ⟨_, this.1, ⟨rfl, rfl⟩, rfl, rfl⟩
    rcases lt_trichotomy i j with hij | hij | hij
    · rw [← main i j u v hu hv hij]
      constructor
      · rintro ⟨e, he, hends, hr⟩
        refine ⟨e, he, ?_, hr⟩
        rcases hends with h | ⟨h1, h2⟩
        · exact h
        · have := (hG6 e he).1; omega
      · rintro ⟨e, he, hends, hr⟩
        exact ⟨e, he, Or.inl hends, hr⟩
    · subst hij
      rw [hu] at hv
      simp only [Option.some.injEq] at hv
      subst hv
      constructor
      · rintro ⟨e, he, hends, -⟩
        have := (hG6 e he).1
        rcases hends with ⟨h1, h2⟩ | ⟨h1, h2⟩ <;> omega
      · rintro ⟨h, -⟩; exact absurd rfl h
    · rw [sharedOf_comm, ne_comm, ← main j i v u hv hu hij]
      constructor
      · rintro ⟨e, he, hends, hr⟩
        refine ⟨e, he, ?_, hr⟩
        rcases hends with ⟨h1, h2⟩ | h
        · have := (hG6 e he).1; omega
        · exact h
      · rintro ⟨e, he, hends, hr⟩
        exact ⟨e, he, Or.inr hends, hr⟩

theorem Structure.unique {C : Type} {n : Nat} {masks : List (List Bool)} {lab : Nat → List C} {minInt : Int} {store : Bool} {G : Graph Nat C}
    (h : Structure n masks lab minInt store G) {u v : Node Nat C} (hu : u ∈ G.nodes) (hv : v ∈ G.nodes) (hset : u.set = v.set) {i : Nat} (hi : i ∈ u.elements)
    (hi' : i ∈ v.elements) : u = v := by
  obtain ⟨col, j, h1, h2, h3⟩ := (h.elements u hu i).1 hi
  obtain ⟨col', j', g1, g2, g3⟩ := (h.elements v hv i).1 hi'
  rw [hset, g1] at h1
  simp only [Option.some.injEq] at h1
  subst h1
  have hjj : j = j' := by
    obtain ⟨a1, a2⟩ := List.getElem?_eq_some_iff.1 h2
    obtain ⟨b1, b2⟩ := List.getElem?_eq_some_iff.1 g2
    exact ((membersOf_nodup col').getElem_inj_iff).1 (a2.trans b2.symm)
  subst hjj
  rw [hset, g3] at h3
  simp only [Option.some.injEq] at h3
  have : (fun v : Node Nat C => (v.set, v.cluster)) u = (fun v : Node Nat C => (v.set, v.cluster)) v := by simp [hset, h3]
  exact List.inj_on_of_nodup_map h.nodup hu hv this

/-- Two samples are in a common node of the pullback set `k`. -/
def Together {C : Type} (G : Graph Nat C) (k i j : Nat) : Prop := ∃ v ∈ G.nodes, v.set = k ∧ i ∈ v.elements ∧ j ∈ v.elements

theorem Structure.together {C : Type} {n : Nat} {masks : List (List Bool)} {lab : Nat → List C} {minInt : Int} {store : Bool} {G : Graph Nat C}
    (h : Structure n masks lab minInt store G) (k i j : Nat) :
    Together G k i j ↔ ∃ (col : List Bool) (p q : Nat) (l : C), masks[k]? = some col ∧ (membersOf col)[p]? = some i ∧ (membersOf col)[q]? = some j ∧
      (lab k)[p]? = some l ∧ (lab k)[q]? = some l := by
  constructor
  · rintro ⟨v, hv, rfl, hi, hj⟩
    obtain ⟨col, p, h1, h2, h3⟩ := (h.elements v hv i).1 hi
    obtain ⟨col', q, g1, g2, g3⟩ := (h.elements v hv j).1 hj
    rw [h1] at g1
    simp only [Option.some.injEq] at g1
    subst g1
    exact ⟨col, p, q, _, h1, h2, g2, h3, g3⟩
  · rintro ⟨col, p, q, l, h1, h2, h3, h4, h5⟩
    obtain ⟨v, hv, rfl, rfl⟩ := h.found k col p i l h1 h2 h4
    exact ⟨v, hv, rfl, (h.elements v hv i).2 ⟨col, p, h1, h2, h4⟩, (h.elements v hv j).2 ⟨col, q, h1, h3, h5⟩⟩

theorem Structure.lt {C : Type} {n : Nat} {masks : List (List Bool)} {lab : Nat → List C} {minInt : Int} {store : Bool} {G : Graph Nat C}
    (h : Structure n masks lab minInt store G) {v : Node Nat C} (hv : v ∈ G.nodes) {i : Nat} (hi : i ∈ v.elements) : i < n := by
  rw [h.sorted v hv] at hi
  exact List.mem_range.1 (List.mem_filter.1 hi).1

/-! ### Reordered graphs -/

/-- `G'` is `G` with samples reordered. -/
structure Reordered {C C' : Type} (σ : List Nat) (G : Graph Nat C) (G' : Graph Nat C') : Prop where
  forth : ∀ v' ∈ G'.nodes, ∃ v ∈ G.nodes, (v'.set = v.set ∧ SameSamples σ v'.elements v.elements) ∧
    ∀ u ∈ G.nodes, v'.set = u.set ∧ SameSamples σ v'.elements u.elements → u = v
  back : ∀ v ∈ G.nodes, ∃ v' ∈ G'.nodes, (v'.set = v.set ∧ SameSamples σ v'.elements v.elements) ∧
    ∀ u' ∈ G'.nodes, u'.set = v.set ∧ SameSamples σ u'.elements v.elements → u' = v'
  edges : ∀ (a b a' b' : Nat) u v u' v', G.nodes[a]? = some u → G.nodes[b]? = some v → G'.nodes[a']? = some u' → G'.nodes[b']? = some v' →
    u'.set = u.set ∧ SameSamples σ u'.elements u.elements → v'.set = v.set ∧ SameSamples σ v'.elements v.elements →
    ∀ w : Nat, (∃ e ∈ G.edges, Ends e.src e.dst a b ∧ e.weight = w) ↔ ∃ e' ∈ G'.edges, Ends e'.src e'.dst a' b' ∧ e'.weight = w

theorem filter_length {n : Nat} {σ : List Nat} (h : Reorders n σ) (P' P : Nat → Bool) (hP : ∀ a i : Nat, σ[a]? = some i → P' a = P i) :
    ((List.range n).filter P').length = ((List.range n).filter P).length := by
  have h1 : ((List.range n).filter P).length = (σ.filter P).length := (h.filter P).length_eq.symm
  have h2 : σ = (List.range n).map fun a => σ.getD a 0 := by
    apply List.ext_getElem?
    intro a
    rw [List.getElem?_map]
    by_cases ha : a < n
    · obtain ⟨i, hi⟩ := reorders_get h ha
      rw [List.getElem?_range ha, Option.map_some, List.getD_eq_getElem?_getD, hi]; rfl
    · rw [List.getElem?_eq_none (by rw [reorders_length h]; omega), List.getElem?_eq_none (by simpa using ha)]; rfl
  rw [h1]
  conv_rhs => rw [h2]
  rw [List.filter_map, List.length_map]
  congr 1
  apply List.filter_congr
  intro a ha
  obtain ⟨i, hi⟩ := reorders_get h (List.mem_range.1 ha)
  rw [hP a i hi, Function.comp, List.getD_eq_getElem?_getD, hi]; rfl

theorem reordered_of_structure {C : Type} {n : Nat} {σ : List Nat} (hσ : Reorders n σ) {masks masks' : List (List Bool)} {lab lab' : Nat → List C} {minInt : Int}
    {store : Bool} {G G' : Graph Nat C} (h : Structure n masks lab minInt store G) (h' : Structure n masks' lab' minInt store G')
    (ht : ∀ k a b i j : Nat, σ[a]? = some i → σ[b]? = some j → (Together G' k a b ↔ Together G k i j)) : Reordered σ G G' := by
  refine ⟨?_, ?_, ?_⟩
  · intro v' hv'
    obtain ⟨a, ha⟩ := List.exists_mem_of_ne_nil _ (h'.nonempty v' hv')
    obtain ⟨i, hi⟩ := reorders_get hσ (h'.lt hv' ha)
    obtain ⟨v, hv, hset, hiv, -⟩ := (ht v'.set a a i i hi hi).1 ⟨v', hv', rfl, ha, ha⟩
    refine ⟨v, hv, ⟨hset.symm, ?_⟩, ?_⟩
    · intro b j hj
      constructor
      · intro hb
        obtain ⟨u, hu, hset', h1, h2⟩ := (ht v'.set a b i j hi hj).1 ⟨v', hv', rfl, ha, hb⟩
        rw [h.unique hv hu (by rw [hset, hset']) hiv h1]; exact h2
      · intro hb
        obtain ⟨u, hu, hset', h1, h2⟩ := (ht v'.set a b i j hi hj).2 ⟨v, hv, hset, hiv, hb⟩
        rw [h'.unique hv' hu hset'.symm ha h1]; exact h2
    · rintro u hu ⟨h1, h2⟩
      exact h.unique hu hv (by rw [← h1, hset]) ((h2 a i hi).1 ha) hiv
  · intro v hv
    obtain ⟨i, hi⟩ := List.exists_mem_of_ne_nil _ (h.nonempty v hv)
    obtain ⟨a, ha⟩ := reorders_surj hσ (h.lt hv hi)
    obtain ⟨v', hv', hset, hav, -⟩ := (ht v.set a a i i ha ha).2 ⟨v, hv, rfl, hi, hi⟩
    refine ⟨v', hv', ⟨hset, ?_⟩, ?_⟩
    · intro b j hj
      constructor
      · intro hb
        obtain ⟨u, hu, hset', h1, h2⟩ := (ht v.set a b i j ha hj).1 ⟨v', hv', hset, hav, hb⟩
        rw [h.unique hv hu hset'.symm hi h1]; exact h2
      · intro hb
        obtain ⟨u, hu, hset', h1, h2⟩ := (ht v.set a b i j ha hj).2 ⟨v, hv, rfl, hi, hb⟩
        rw [h'.unique hv' hu (by rw [hset, hset']) hav h1]; exact h2
    · rintro u hu ⟨h1, h2⟩
      exact h'.unique hu hv' (by rw [h1, hset]) ((h2 a i ha).2 hi) hav
  · intro a b a' b' u v u' v' hu hv hu' hv' hmu hmv w
    have hlen : (sharedOf n u' v').length = (sharedOf n u v).length := by
      unfold sharedOf
      apply filter_length hσ
      intro x y hxy
      rw [decide_eq_decide, hmu.2 x y hxy, hmv.2 x y hxy]
    have e1 := h.edge a b u v hu hv w (if store then some (sharedOf n u v) else none)
    have e2 := h'.edge a' b' u' v' hu' hv' w (if store then some (sharedOf n u' v') else none)
    have hels : ∀ (i j : Nat) (x y : Node Nat C), G.nodes[i]? = some x → G.nodes[j]? = some y → ∀ e ∈ G.edges, Ends e.src e.dst i j → e.elements = if store then some (sharedOf n x y) else none :=
      fun i j x y hx hy e he hends => ((h.edge i j x y hx hy e.weight e.elements).1 ⟨e, he, hends, rfl, rfl⟩).2.2.2.2
    have hels' : ∀ (i j : Nat) (x y : Node Nat C), G'.nodes[i]? = some x → G'.nodes[j]? = some y → ∀ e ∈ G'.edges, Ends e.src e.dst i j → e.elements = if store then some (sharedOf n x y) else none :=
      fun i j x y hx hy e he hends => ((h'.edge i j x y hx hy e.weight e.elements).1 ⟨e, he, hends, rfl, rfl⟩).2.2.2.2
    have f1 : (∃ e ∈ G.edges, Ends e.src e.dst a b ∧ e.weight = w) ↔ ∃ e ∈ G.edges, Ends e.src e.dst a b ∧ e.weight = w ∧ e.elements = if store then some (sharedOf n u v) else none := by
      constructor
      · rintro ⟨e, he, h1, h2⟩; exact ⟨e, he, h1, h2, hels a b u v hu hv e he h1⟩
      · rintro ⟨e, he, h1, h2, -⟩; exact ⟨e, he, h1, h2⟩
    have f2 : (∃ e ∈ G'.edges, Ends e.src e.dst a' b' ∧ e.weight = w) ↔ ∃ e ∈ G'.edges, Ends e.src e.dst a' b' ∧ e.weight = w ∧ e.elements = if store then some (sharedOf n u' v') else none := by
      constructor
      · rintro ⟨e, he, h1, h2⟩; exact ⟨e, he, h1, h2, hels' a' b' u' v' hu' hv' e he h1⟩
      · rintro ⟨e, he, h1, h2, -⟩; exact ⟨e, he, h1, h2⟩
    rw [f1, f2, e1, e2, hlen, hmu.1, hmv.1]
    simp


/-! ### Masks of reordered data -/

theorem pickB_map {α : Type} {X X' : List α} {σ : List Nat} (h : Picks X σ X') (g : α → Bool) : X'.map g = pickB σ (X.map g) := by
  rw [picks_iff] at h
  unfold pickB
  apply List.ext_getElem?
  intro a
  rw [List.getElem?_map, List.getElem?_map]
  by_cases ha : a < σ.length
  · obtain ⟨x, h1, h2⟩ := h.2 a σ[a] (List.getElem?_eq_getElem ha)
    rw [h2, List.getElem?_eq_getElem ha, Option.map_some, Option.map_some, List.getD_eq_getElem?_getD, List.getElem?_map, h1]; rfl
  · have h1 := h.1
    rw [List.getElem?_eq_none (by omega), List.getElem?_eq_none (by omega)]; rfl

theorem picks_map {α β : Type} {X X' : List α} {σ : List Nat} (h : Picks X σ X') (g : α → β) : Picks (X.map g) σ (X'.map g) := by
  rw [picks_iff] at h ⊢
  refine ⟨by rw [List.length_map, h.1], fun (a s : Nat) hs => ?_⟩
  obtain ⟨x, h1, h2⟩ := h.2 a s hs
  exact ⟨g x, by rw [List.getElem?_map, h1]; rfl, by rw [List.getElem?_map, h2]; rfl⟩

theorem picks_perm {α : Type} {X X' : List α} {σ : List Nat} (hσ : Reorders X.length σ) (h : Picks X σ X') : X'.Perm X := by
  have h1 : (X'.map some).Perm (X.map some) := by
    have h2 : X.map some = (List.range X.length).map fun i => X[i]? := by
      apply List.ext_getElem?
      intro a
      rw [List.getElem?_map, List.getElem?_map]
      by_cases ha : a < X.length
      · rw [List.getElem?_range ha, List.getElem?_eq_getElem ha, Option.map_some, Option.map_some, List.getElem?_eq_getElem ha]
      · rw [List.getElem?_eq_none (by omega), List.getElem?_eq_none (by simpa using ha)]; rfl
    unfold Picks at h
    rw [h, h2]
    exact hσ.map _
  have h3 := h1.filterMap id
  simpa [List.filterMap_map] using h3

theorem pickB_length (σ : List Nat) (col : List Bool) : (pickB σ col).length = σ.length := by unfold pickB; simp

theorem pickB_any {n : Nat} {σ : List Nat} (hσ : Reorders n σ) {col : List Bool} (hc : col.length = n) : (pickB σ col).any id = col.any id := by
  rw [Bool.eq_iff_iff, List.any_eq_true, List.any_eq_true]
  constructor
  · rintro ⟨b, hb, hb'⟩
    obtain rfl : b = true := by simpa using hb'
    obtain ⟨a, ha⟩ := List.mem_iff_getElem?.1 hb
    have hlt : a < n := by have := (List.getElem?_eq_some_iff.1 ha).1; rw [pickB_length, reorders_length hσ] at this; exact this
    obtain ⟨i, hi⟩ := reorders_get hσ hlt
    exact ⟨true, List.mem_of_getElem? ((pickB_get σ col a i hi).1 ha), rfl⟩
  · rintro ⟨b, hb, hb'⟩
    obtain rfl : b = true := by simpa using hb'
    obtain ⟨i, hi⟩ := List.mem_iff_getElem?.1 hb
    obtain ⟨a, ha⟩ := reorders_surj hσ (by rw [← hc]; exact (List.getElem?_eq_some_iff.1 hi).1)
    exact ⟨true, List.mem_of_getElem? ((pickB_get σ col a i ha).2 hi), rfl⟩

theorem pickB_inj {n : Nat} {σ : List Nat} (hσ : Reorders n σ) {c d : List Bool} (hc : c.length = n) (hd : d.length = n) (h : pickB σ c = pickB σ d) : c = d := by
  refine bool_ext hc hd ?_
  intro i hi
  obtain ⟨a, ha⟩ := reorders_surj hσ hi
  rw [← pickB_get σ c a i ha, ← pickB_get σ d a i ha, h]

theorem firstOcc_map {α β : Type} [DecidableEq α] [DecidableEq β] (g : α → β) (l : List α) (hg : ∀ x ∈ l, ∀ y ∈ l, g x = g y → x = y) :
    firstOcc (l.map g) = (firstOcc l).map g := by
  induction l with
  | nil => rfl
  | cons a t ih =>
    rw [List.map_cons, firstOcc, firstOcc, List.map_cons, ih (fun x hx y hy => hg x (List.mem_cons_of_mem _ hx) y (List.mem_cons_of_mem _ hy)), List.filter_map]
    congr 2
    apply List.filter_congr
    intro x hx
    have hx' := (mem_firstOcc _ _).1 hx
    have : g x = g a ↔ x = a := ⟨fun h => hg x (List.mem_cons_of_mem _ hx') a (by simp) h, fun h => by rw [h]⟩
    simpa using this

theorem clean_reordered {n : Nat} {σ : List Nat} (hσ : Reorders n σ) (cols : List (List Bool)) (h : ∀ c ∈ cols, c.length = n) :
    cleanMasks (cols.map (pickB σ)) = (cleanMasks cols).map (pickB σ) := by
  rw [cleanMasks_eq, cleanMasks_eq, List.filter_map]
  have h1 : cols.filter ((fun c => c.any id) ∘ pickB σ) = cols.filter fun c => c.any id :=
    List.filter_congr fun c hc => by rw [Function.comp, pickB_any hσ (h c hc)]
  rw [h1]
  apply firstOcc_map
  intro x hx y hy he
  exact pickB_inj hσ (h x (List.mem_filter.1 hx).1) (h y (List.mem_filter.1 hy).1) he

section
variable {K : Type} [Field K] [LinearOrder K] [IsStrictOrderedRing K] [FloorRing K]

theorem foldl_min_perm {x x' : K} {t t' : List K} (h : (x' :: t').Perm (x :: t)) : t'.foldl min x' = t.foldl min x := by
  obtain ⟨a1, a2⟩ := foldl_min_spec t x
  obtain ⟨b1, b2⟩ := foldl_min_spec t' x'
  exact le_antisymm (b2 _ (h.mem_iff.2 a1)) (a2 _ (h.mem_iff.1 b1))

theorem foldl_max_perm {L : Type} [LinearOrder L] {x x' : L} {t t' : List L} (h : (x' :: t').Perm (x :: t)) : t'.foldl max x' = t.foldl max x := by
  obtain ⟨a1, a2⟩ := foldl_max_spec t x
  obtain ⟨b1, b2⟩ := foldl_max_spec t' x'
  exact le_antisymm (a2 _ (h.mem_iff.1 b1)) (b2 _ (h.mem_iff.2 a1))

theorem fitUniform_perm (n : Nat) (f : K) {X X' : List K} (h : X'.Perm X) : fitUniform n f X' = fitUniform n f X := by
  cases X with
  | nil => rw [List.perm_nil.1 h]
  | cons x t =>
    cases X' with
    | nil => exact absurd h.symm (List.not_perm_cons_nil)
    | cons x' t' =>
      unfold fitUniform
      simp only [foldl_min_perm h, foldl_max_perm h]

theorem balancedLimits_perm (n : Nat) (f : K) {R R' : List Nat} (h : R'.Perm R) : balancedLimits n f R' = balancedLimits n f R := by
  cases R with
  | nil => rw [List.perm_nil.1 h]
  | cons x t =>
    cases R' with
    | nil => exact absurd h.symm (List.not_perm_cons_nil)
    | cons x' t' =>
      unfold balancedLimits
      simp only [foldl_max_perm h]

theorem denseRank_picks {X X' : List K} {σ : List Nat} (hσ : Reorders X.length σ) (h : Picks X σ X') : Picks (denseRank X) σ (denseRank X') := by
  have hp := picks_perm hσ h
  have : denseRank X' = X'.map fun x => ((X.filter (· < x)).dedup).length := by
    unfold denseRank
    apply List.map_congr_left
    intro x _
    exact ((hp.filter _).dedup).length_eq
  rw [this]
  exact picks_map h _

theorem denseRank_length (X : List K) : (denseRank X).length = X.length := by unfold denseRank; simp

theorem balanced_reordered (n : Nat) (f : K) {X X' : List K} {σ : List Nat} (hσ : Reorders X.length σ) (h : Picks X σ X') :
    (fitTransformBalanced n f X').map Prod.fst = (fitTransformBalanced n f X).map fun r => r.1.map (pickB σ) := by
  have hr := denseRank_picks hσ h
  have hp := picks_perm (by rw [denseRank_length]; exact hσ) hr
  unfold fitTransformBalanced
  simp only [balancedLimits_perm n f hp]
  cases balancedLimits n f (denseRank X) with
  | error e => rfl
  | ok lr =>
    simp only [ok_bind, pure, Except.pure, Except.map, Except.ok.injEq, List.map_map]
    apply List.map_congr_left
    intro p _
    exact pickB_map hr _

theorem balanced_lengths (n : Nat) (f : K) (X : List K) {m : List (List Bool)} {lr : List K × List K} (h : fitTransformBalanced n f X = .ok (m, lr)) : ∀ c ∈ m, c.length = X.length := by
  unfold fitTransformBalanced at h
  cases hb : balancedLimits n f (denseRank X) with
  | error e => simp only [hb] at h; cases h
  | ok lr' =>
    simp only [hb, ok_bind, pure, Except.pure, Except.ok.injEq, Prod.mk.injEq] at h
    intro c hc
    rw [← h.1] at hc
    obtain ⟨p, -, rfl⟩ := List.mem_map.1 hc
    rw [List.length_map, denseRank_length]

theorem coverMasks_reordered (ivs : List (Ival K)) {X X' : List K} {σ : List Nat} (h : Picks X σ X') : coverMasks ivs X' = (coverMasks ivs X).map (pickB σ) := by
  unfold coverMasks
  rw [List.map_map]
  apply List.map_congr_left
  intro I _
  exact pickB_map h _

theorem coverMasks_lengths (ivs : List (Ival K)) (X : List K) : ∀ c ∈ coverMasks ivs X, c.length = X.length := by
  intro c hc
  obtain ⟨I, -, rfl⟩ := List.mem_map.1 hc
  simp

theorem oneDim_reordered (p : CoverParams K) {X X' : List K} {σ : List Nat} (hσ : Reorders X.length σ) (h : Picks X σ X') :
    (coverFitTransform p ⟨none⟩ X').2 = (coverFitTransform p ⟨none⟩ X).2.map fun m => m.map (pickB σ) := by
  unfold coverFitTransform
  by_cases hb : p.balanced = true
  · rw [if_pos hb, if_pos hb]
    have hr := balanced_reordered p.n p.f hσ h
    cases hx : fitTransformBalanced p.n p.f X with
    | error e =>
      rw [hx] at hr
      cases hx' : fitTransformBalanced p.n p.f X' with
      | error e' => rw [hx'] at hr; simpa [Except.map] using hr
      | ok r => rw [hx'] at hr; simp [Except.map] at hr
    | ok r =>
      rw [hx] at hr
      cases hx' : fitTransformBalanced p.n p.f X' with
      | error e' => rw [hx'] at hr; simp [Except.map] at hr
      | ok r' =>
        rw [hx'] at hr
        simp only [Except.map, Except.ok.injEq] at hr
        simp only [Except.map, Except.ok.injEq]
        rw [hr]
        exact clean_reordered hσ _ (balanced_lengths _ _ _ hx)
  · rw [if_neg hb, if_neg hb, fitUniform_perm p.n p.f (picks_perm hσ h)]
    cases fitUniform p.n p.f X with
    | error e => rfl
    | ok ivs =>
      simp only [Except.map, Except.ok.injEq]
      rw [coverMasks_reordered ivs h]
      exact clean_reordered hσ _ (coverMasks_lengths _ _)

theorem cartesian_map {α β : Type} (g : α → β) (ls : List (List α)) : cartesian (ls.map (List.map g)) = (cartesian ls).map (List.map g) := by
  induction ls with
  | nil => rfl
  | cons l t ih =>
    rw [List.map_cons, cartesian, cartesian, ih, List.map_flatMap, List.flatMap_map]
    congr 1
    funext a
    rw [List.map_map, List.map_map]
    rfl

theorem and_reordered {n : Nat} {σ : List Nat} (hσ : Reorders n σ) (t : List (List Bool)) (h : ∀ c ∈ t, c.length = n) :
    andColumns n (t.map (pickB σ)) = pickB σ (andColumns n t) := by
  obtain ⟨l1, g1⟩ := andColumns_get n t h
  obtain ⟨l2, g2⟩ := andColumns_get n (t.map (pickB σ)) (by
    intro c hc
    obtain ⟨c', -, rfl⟩ := List.mem_map.1 hc
    rw [pickB_length, reorders_length hσ])
  refine bool_ext l2 (by rw [pickB_length, reorders_length hσ]) ?_
  intro a ha
  obtain ⟨i, hi⟩ := reorders_get hσ ha
  rw [pickB_get _ _ a i hi, g1 i (reorders_lt hσ hi).2, g2 a ha]
  constructor
  · intro h2 c hc
    rw [← pickB_get σ c a i hi]
    exact h2 _ (List.mem_map.2 ⟨c, hc, rfl⟩)
  · intro h2 c hc
    obtain ⟨c', hc', rfl⟩ := List.mem_map.1 hc
    rw [pickB_get σ c' a i hi]
    exact h2 _ hc'

theorem combine_reordered {n : Nat} {σ : List Nat} (hσ : Reorders n σ) (covers : List (List (List Bool))) (h : ∀ l ∈ covers, ∀ c ∈ l, c.length = n) :
    combineCovers n (covers.map (List.map (pickB σ))) = (combineCovers n covers).map (pickB σ) := by
  unfold combineCovers
  rw [cartesian_map, List.map_map, ← clean_reordered hσ, List.map_map]
  · congr 1
    apply List.map_congr_left
    intro t ht
    exact and_reordered hσ t (length_of_mem_cartesian h ht)
  · intro c hc
    obtain ⟨t, ht, rfl⟩ := List.mem_map.1 hc
    exact (andColumns_get n t (length_of_mem_cartesian h ht)).1

theorem column_picks {V V' : List (List K)} {σ : List Nat} {d : Nat} (hV : ∀ r ∈ V, r.length = d) (h : Picks V σ V') (j : Nat) (hj : j < d) :
    Picks (column V j) σ (column V' j) := by
  have key : ∀ W : List (List K), (∀ r ∈ W, r.length = d) → (column W j).map some = W.map fun r => r[j]? := by
    intro W hW
    unfold column
    induction W with
    | nil => rfl
    | cons r t ih =>
      have hr := hW r (by simp)
      rw [List.filterMap_cons_some (b := r[j]'(by omega)) (by simp), List.map_cons, ih (fun r hr => hW r (by simp [hr])), List.map_cons]
      simp [hr, hj]
  have hV' : ∀ r ∈ V', r.length = d := by
    intro r hr
    obtain ⟨a, ha⟩ := List.mem_iff_getElem?.1 hr
    rw [picks_iff] at h
    have hal : a < σ.length := by rw [← h.1]; exact (List.getElem?_eq_some_iff.1 ha).1
    obtain ⟨x, h1, h2⟩ := h.2 a _ (List.getElem?_eq_getElem hal)
    rw [ha] at h2
    simp only [Option.some.injEq] at h2
    subst h2
    exact hV _ (List.mem_of_getElem? h1)
  have hp := picks_map h fun r => r[j]?
  rw [← key V hV, ← key V' hV'] at hp
  rw [picks_iff] at hp ⊢
  refine ⟨by simpa using hp.1, fun (a s : Nat) hs => ?_⟩
  obtain ⟨x, h1, h2⟩ := hp.2 a s hs
  rw [List.getElem?_map, Option.map_eq_some_iff] at h1 h2
  obtain ⟨y, h3, rfl⟩ := h1
  obtain ⟨z, h4, h5⟩ := h2
  simp only [Option.some.injEq] at h5
  subst h5
  exact ⟨_, h3, h4⟩

theorem mapM_forall₂ {α β γ : Type} {R : α → α → Prop} (g : α → PyM β) (g' : α → PyM γ) (φ : β → γ) {l l' : List α} (hl : List.Forall₂ R l l')
    (h : ∀ a a', R a a' → g' a' = (g a).map φ) : l'.mapM g' = (l.mapM g).map (List.map φ) := by
  induction hl with
  | nil => rfl
  | @cons a a' t t' h1 _ ih =>
    rw [List.mapM_cons, List.mapM_cons, ih, h a a' h1]
    cases g a with
    | error e => rfl
    | ok b =>
      simp only [Except.map, ok_bind]
      cases t.mapM g with
      | error e => rfl
      | ok bs => rfl

theorem mapM_mem {α β : Type} (g : α → PyM β) (l : List α) (r : List β) (h : l.mapM g = .ok r) : ∀ b ∈ r, ∃ a ∈ l, g a = .ok b := by
  induction l generalizing r with
  | nil =>
    simp only [List.mapM_nil, pure, Except.pure, Except.ok.injEq] at h
    subst h
    simp
  | cons a t ih =>
    rw [List.mapM_cons] at h
    cases hg : g a with
    | error e => rw [hg] at h; cases h
    | ok b0 =>
      rw [hg, ok_bind] at h
      cases ht : t.mapM g with
      | error e => rw [ht] at h; cases h
      | ok bs =>
        rw [ht, ok_bind] at h
        simp only [pure, Except.pure, Except.ok.injEq] at h
        subst h
        intro b hb
        rcases List.mem_cons.1 hb with rfl | hb
        · exact ⟨a, by simp, hg⟩
        · obtain ⟨a', h1, h2⟩ := ih bs ht b hb
          exact ⟨a', List.mem_cons_of_mem _ h1, h2⟩

/-- The sets of one feature after the other, for fitted intervals. -/
theorem cubicalMasks_eq (n : Nat) (l : List (List (Ival K))) (Y : List (List K)) :
    cubicalMasks n (l.map fun ivs => ⟨some ivs⟩) Y = .ok (combineCovers n (List.zipWith (fun y ivs => coverMasks ivs y) Y l)) := by
  unfold cubicalMasks
  have : (Y.zip (l.map fun ivs => (⟨some ivs⟩ : CoverState K))).mapM (fun p => coverRaw p.2 p.1) = .ok (List.zipWith (fun y ivs => coverMasks ivs y) Y l) := by
    induction Y generalizing l with
    | nil => rfl
    | cons y t ih =>
      cases l with
      | nil => rfl
      | cons ivs l =>
        rw [List.map_cons, List.zip_cons_cons, List.mapM_cons, ih]
        rfl
  rw [this, ok_bind]
  rfl

theorem cubical_reordered (p : CoverParams K) {n : Nat} {σ : List Nat} (hσ : Reorders n σ) {cs cs' : List (List K)}
    (h : List.Forall₂ (fun c c' => Picks c σ c' ∧ c.length = n) cs cs') :
    (cubicalFitTransform p ⟨none⟩ n cs').2 = (cubicalFitTransform p ⟨none⟩ n cs).2.map fun m => m.map (pickB σ) := by
  unfold cubicalFitTransform
  by_cases hb : p.balanced = true
  · rw [if_pos hb, if_pos hb]
    have hm := mapM_forall₂ (fun x => (fitTransformBalanced p.n p.f x).map Prod.fst) (fun x => (fitTransformBalanced p.n p.f x).map Prod.fst) (List.map (pickB σ)) h (by
      rintro a a' ⟨h1, h2⟩
      rw [balanced_reordered p.n p.f (by rw [h2]; exact hσ) h1]
      cases fitTransformBalanced p.n p.f a <;> rfl)
    rw [hm]
    cases hx : cs.mapM (fun x => (fitTransformBalanced p.n p.f x).map Prod.fst) with
    | error e => rfl
    | ok covers =>
      simp only [Except.map, Except.ok.injEq]
      apply combine_reordered hσ
      intro l hl c hc
      obtain ⟨x, hx1, hx2⟩ := mapM_mem _ _ _ hx l hl
      cases hf : fitTransformBalanced p.n p.f x with
      | error e => rw [hf] at hx2; cases hx2
      | ok r =>
        rw [hf] at hx2
        simp only [Except.map, Except.ok.injEq] at hx2
        subst hx2
        rw [balanced_lengths p.n p.f x (m := r.1) (lr := r.2) hf c hc]
        obtain ⟨x', hx'⟩ : ∃ x', (Picks x σ x' ∧ x.length = n) := by
          obtain ⟨k, hk⟩ := List.mem_iff_get.1 hx1
          have := (List.forall₂_iff_get.1 h).2 k.1 k.2 (by rw [← h.length_eq]; exact k.2)
          rw [hk] at this
          exact ⟨_, this⟩
        exact hx'.2
  · rw [if_neg hb, if_neg hb]
    have hm := mapM_forall₂ (coverFitLimits p) (coverFitLimits p) id h (by
      rintro a a' ⟨h1, h2⟩
      unfold coverFitLimits
      rw [if_neg hb, if_neg hb, fitUniform_perm p.n p.f (picks_perm (by rw [h2]; exact hσ) h1)]
      cases fitUniform p.n p.f a <;> rfl)
    rw [hm]
    cases hx : cs.mapM (coverFitLimits p) with
    | error e => rfl
    | ok l =>
      simp only [Except.map, List.map_id, cubicalMasks_eq, Except.ok.injEq]
      have hz : List.zipWith (fun y ivs => coverMasks ivs y) cs' l = (List.zipWith (fun y ivs => coverMasks ivs y) cs l).map (List.map (pickB σ)) := by
        clear hm hx
        induction h generalizing l with
        | nil => rfl
        | cons h1 _ ih =>
          cases l with
          | nil => rfl
          | cons ivs l => rw [List.zipWith_cons_cons, List.zipWith_cons_cons, List.map_cons, ih, coverMasks_reordered ivs h1.1]
      rw [hz]
      apply combine_reordered hσ
      clear hm hx hz
      induction h generalizing l with
      | nil => simp
      | cons h1 _ ih =>
        cases l with
        | nil => simp
        | cons ivs l =>
          intro m hm c hc
          rw [List.zipWith_cons_cons] at hm
          rcases List.mem_cons.1 hm with rfl | hm
          · rw [coverMasks_lengths ivs _ c hc, h1.2]
          · exact ih l m hm c hc

theorem masks_clean (cover : CoverKind K) (V : List (List K)) (masks : List (List Bool)) (h : coverKindFitTransform cover V = .ok masks) : ∃ cols, masks = cleanMasks cols := by
  unfold coverKindFitTransform at h
  by_cases h0 : V.length = 0 ∨ (V.headD []).length = 0
  · rw [if_pos h0] at h; cases h
  rw [if_neg h0] at h
  cases cover with
  | oneDimensional p =>
    dsimp only at h
    by_cases h1 : (V.headD []).length = 1
    · rw [if_pos h1] at h
      unfold coverFitTransform at h
      by_cases hb : p.balanced = true
      · rw [if_pos hb] at h
        cases hf : fitTransformBalanced p.n p.f (column V 0) with
        | error e => rw [hf] at h; cases h
        | ok r => rw [hf] at h; simp only [Except.ok.injEq] at h; exact ⟨_, h.symm⟩
      · rw [if_neg hb] at h
        cases hf : fitUniform p.n p.f (column V 0) with
        | error e => rw [hf] at h; cases h
        | ok r => rw [hf] at h; simp only [Except.ok.injEq] at h; exact ⟨_, h.symm⟩
    · rw [if_neg h1] at h; cases h
  | cubical p =>
    dsimp only at h
    unfold cubicalFitTransform at h
    by_cases hb : p.balanced = true
    · rw [if_pos hb] at h
      cases hf : (columns V).mapM (fun x => (fitTransformBalanced p.n p.f x).map Prod.fst) with
      | error e => rw [hf] at h; cases h
      | ok r => rw [hf] at h; simp only [Except.ok.injEq] at h; exact ⟨_, h.symm⟩
    · rw [if_neg hb] at h
      cases hf : (columns V).mapM (coverFitLimits p) with
      | error e => rw [hf] at h; cases h
      | ok r =>
        rw [hf] at h
        simp only [cubicalMasks_eq, Except.ok.injEq] at h
        exact ⟨_, h.symm⟩

theorem cover_reordered (cover : CoverKind K) {V V' : List (List K)} {σ : List Nat} {d : Nat} (hσ : Reorders V.length σ) (hV : ∀ r ∈ V, r.length = d) (hV0 : V ≠ [])
    (h : Picks V σ V') : coverKindFitTransform cover V' = (coverKindFitTransform cover V).map fun m => m.map (pickB σ) := by
  have hp := picks_perm hσ h
  have hV'0 : V' ≠ [] := fun e => hV0 (by rw [e] at hp; exact List.nil_perm.1 hp)
  have hV' : ∀ r ∈ V', r.length = d := fun r hr => hV r (hp.mem_iff.1 hr)
  have hhead : ∀ W : List (List K), W ≠ [] → (∀ r ∈ W, r.length = d) → (W.headD []).length = d := by
    intro W h0 h1
    cases W with
    | nil => exact absurd rfl h0
    | cons a t => exact h1 a (by simp)
  unfold coverKindFitTransform
  rw [hhead V hV0 hV, hhead V' hV'0 hV', hp.length_eq]
  by_cases hd : V.length = 0 ∨ d = 0
  · rw [if_pos hd, if_pos hd]; rfl
  · rw [if_neg hd, if_neg hd]
    cases cover with
    | oneDimensional p =>
      dsimp only
      by_cases h1 : d = 1
      · rw [if_pos h1, if_pos h1]
        exact oneDim_reordered p (by rw [column_length V d hV 0 (by omega)]; exact hσ) (column_picks hV h 0 (by omega))
      · rw [if_neg h1, if_neg h1]; rfl
    | cubical p =>
      dsimp only
      apply cubical_reordered p hσ
      unfold columns
      rw [hhead V hV0 hV, hhead V' hV'0 hV']
      rw [List.forall₂_map_left_iff, List.forall₂_map_right_iff, List.forall₂_same]
      intro j hj
      have hj' := List.mem_range.1 hj
      exact ⟨column_picks hV h j hj', column_length V d hV j hj'⟩

end

end Gtda.Props.MapperInv

/-! ### `min_intersection` and `store_edge_elements` -/

namespace Gtda.Props.MapperInv
open Gtda.Py Gtda.Mapper Gtda.Spec

/-- Keep only edges of weight at least `m`. -/
def keepHeavy {P C : Type} (m : Int) (G : Graph P C) : Graph P C := ⟨G.nodes, G.edges.filter fun e => decide (m ≤ (e.weight : Int))⟩

/-- Forget the elements of edges. -/
def forget {P C : Type} (G : Graph P C) : Graph P C := ⟨G.nodes, G.edges.map fun e => { e with elements := none }⟩

theorem edgeData_heavy {P C : Type} [DecidableEq P] (m m' : Int) (hmm : m ≤ m') (contract : Bool) (nodes : List (Node P C)) :
    (generateEdgeData m' contract nodes).mapping = (generateEdgeData m contract nodes).mapping ∧
    (generateEdgeData m' contract nodes).pairs = (generateEdgeData m contract nodes).pairs.filter fun p => decide (m' ≤ (p.2.1 : Int)) := by
  unfold generateEdgeData
  have key : ∀ (l : List ((Node P C × Nat) × (Node P C × Nat))) (s s' : EdgeData), s'.mapping = s.mapping → s'.pairs = s.pairs.filter (fun p => decide (m' ≤ (p.2.1 : Int))) →
      (l.foldl (edgeStep m' contract) s').mapping = (l.foldl (edgeStep m contract) s).mapping ∧
      (l.foldl (edgeStep m' contract) s').pairs = (l.foldl (edgeStep m contract) s).pairs.filter fun p => decide (m' ≤ (p.2.1 : Int)) := by
    intro l
    induction l with
    | nil => intro s s' h1 h2; exact ⟨h1, h2⟩
    | cons t l ih =>
      intro s s' h1 h2
      rw [List.foldl_cons, List.foldl_cons]
      have happ : ∀ (i j : Nat) (inter : List Nat), (metadataAppend m' s' i j inter).mapping = (metadataAppend m s i j inter).mapping ∧
          (metadataAppend m' s' i j inter).pairs = (metadataAppend m s i j inter).pairs.filter fun p => decide (m' ≤ (p.2.1 : Int)) := by
        intro i j inter
        unfold metadataAppend
        by_cases c2 : m' ≤ (inter.length : Int)
        · rw [if_pos c2, if_pos (le_trans hmm c2)]
          simp [h1, h2, List.filter_append, c2]
        · rw [if_neg c2]
          split_ifs
          · simp [h1, h2, List.filter_append, c2]
          · exact ⟨h1, h2⟩
      have hstep : (edgeStep m' contract s' t).mapping = (edgeStep m contract s t).mapping ∧
          (edgeStep m' contract s' t).pairs = (edgeStep m contract s t).pairs.filter fun p => decide (m' ≤ (p.2.1 : Int)) := by
        unfold edgeStep
        by_cases c1 : t.1.1.set = t.2.1.set
        · rw [if_pos c1, if_pos c1]; exact ⟨h1, h2⟩
        · rw [if_neg c1, if_neg c1]
          dsimp only
          split_ifs
          · unfold subsetCheck
            split_ifs
            · exact ⟨by rw [h1], h2⟩
            · exact ⟨by rw [h1], h2⟩
            · exact happ _ _ _
          · exact happ _ _ _
          · exact ⟨h1, h2⟩
      exact ih _ _ hstep.1 hstep.2
  exact key _ _ _ rfl rfl

/-- Contraction treats every edge by itself and keeps its weight. -/
theorem contract_heavy {P C : Type} (m : Int) (lim : List Nat) (G : Graph P C) : contractGraph lim (keepHeavy m G) = keepHeavy m (contractGraph lim G) := by
  unfold contractGraph keepHeavy
  dsimp only
  congr 1
  induction G.edges with
  | nil => rfl
  | cons e t ih =>
    by_cases h : m ≤ (e.weight : Int)
    · rw [List.filter_cons_of_pos (by simpa using h), List.filterMap_cons, List.filterMap_cons]
      split
      · rename_i heq; rw [ih]
      · rename_i e' heq
        have hw : e'.weight = e.weight := by
          split at heq
          · split_ifs at heq
            simp only [Option.some.injEq] at heq
            rw [← heq]
          · cases heq
        rw [List.filter_cons_of_pos (by rw [hw]; simpa using h), ih]
    · rw [List.filter_cons_of_neg (by simpa using h), ih, List.filterMap_cons]
      split
      · rfl
      · rename_i e' heq
        have hw : e'.weight = e.weight := by
          split at heq
          · split_ifs at heq
            simp only [Option.some.injEq] at heq
            rw [← heq]
          · cases heq
        rw [List.filter_cons_of_neg (by rw [hw]; simpa using h)]

theorem nerve_heavy {P C : Type} [DecidableEq P] [DecidableEq C] (m m' : Int) (hmm : m ≤ m') (store contract : Bool) (fuel : Nat) (L : List (List (P × C))) :
    nerve m' store contract fuel L = (nerve m store contract fuel L).map (Option.map (keepHeavy m')) := by
  unfold nerve
  dsimp only
  by_cases h0 : nerveNodes L = []
  · rw [if_pos h0, if_pos h0]; rfl
  · rw [if_neg h0, if_neg h0]
    obtain ⟨h1, h2⟩ := edgeData_heavy m m' hmm contract (nerveNodes L)
    have h3 : (⟨nerveNodes L, (generateEdgeData m' contract (nerveNodes L)).pairs.map fun p => ⟨p.1.1, p.1.2, p.2.1, if store then some p.2.2 else none⟩⟩ : Graph P C) =
        keepHeavy m' ⟨nerveNodes L, (generateEdgeData m contract (nerveNodes L)).pairs.map fun p => ⟨p.1.1, p.1.2, p.2.1, if store then some p.2.2 else none⟩⟩ := by
      unfold keepHeavy
      dsimp only
      rw [h2, List.filter_map]
      rfl
    rw [h3, h1]
    cases contract with
    | false => rfl
    | true =>
      rw [if_pos rfl, if_pos rfl]
      cases limitMapping fuel (generateEdgeData m true (nerveNodes L)).mapping with
      | none => rfl
      | some lim =>
        dsimp only [Except.map, Option.map]
        rw [contract_heavy]

theorem contract_forget {P C : Type} (lim : List Nat) (G : Graph P C) : contractGraph lim (forget G) = forget (contractGraph lim G) := by
  unfold contractGraph forget
  dsimp only
  congr 1
  rw [List.filterMap_map, List.map_filterMap]
  apply List.filterMap_congr
  intro e _
  dsimp only [Function.comp]
  cases lim[e.src]? with
  | none => rfl
  | some a =>
    cases lim[e.dst]? with
    | none => rfl
    | some b =>
      dsimp only
      split_ifs <;> rfl

theorem nerve_forget {P C : Type} [DecidableEq P] [DecidableEq C] (m : Int) (contract : Bool) (fuel : Nat) (L : List (List (P × C))) :
    nerve m false contract fuel L = (nerve m true contract fuel L).map (Option.map forget) := by
  unfold nerve
  dsimp only
  by_cases h0 : nerveNodes L = []
  · rw [if_pos h0, if_pos h0]; rfl
  · rw [if_neg h0, if_neg h0]
    have h3 : (⟨nerveNodes L, (generateEdgeData m contract (nerveNodes L)).pairs.map fun p => ⟨p.1.1, p.1.2, p.2.1, if false = true then some p.2.2 else none⟩⟩ : Graph P C) =
        forget ⟨nerveNodes L, (generateEdgeData m contract (nerveNodes L)).pairs.map fun p => ⟨p.1.1, p.1.2, p.2.1, if true = true then some p.2.2 else none⟩⟩ := by
      unfold forget
      dsimp only
      rw [List.map_map]
      rfl
    rw [h3]
    cases contract with
    | false => rfl
    | true =>
      rw [if_pos rfl, if_pos rfl]
      cases limitMapping fuel (generateEdgeData m true (nerveNodes L)).mapping with
      | none => rfl
      | some lim =>
        dsimp only [Except.map, Option.map]
        rw [contract_forget]

theorem nerve_small {P C : Type} [DecidableEq P] [DecidableEq C] (m : Int) (hm : m ≤ 1) (store contract : Bool) (fuel : Nat) (L : List (List (P × C))) :
    nerve m store contract fuel L = nerve 1 store contract fuel L := by
  have hstep : ∀ (s : EdgeData) (t : (Node P C × Nat) × (Node P C × Nat)), edgeStep m contract s t = edgeStep 1 contract s t := by
    intro s t
    unfold edgeStep
    by_cases h1 : t.1.1.set = t.2.1.set
    · rw [if_pos h1, if_pos h1]
    · rw [if_neg h1, if_neg h1]
      dsimp only
      by_cases h2 : (intersect1d t.1.1.elements t.2.1.elements).length ≠ 0
      · rw [if_pos h2, if_pos h2]
        have happ : ∀ (s : EdgeData) (i j : Nat), metadataAppend m s i j (intersect1d t.1.1.elements t.2.1.elements) = metadataAppend 1 s i j (intersect1d t.1.1.elements t.2.1.elements) := by
          intro s i j
          unfold metadataAppend
          rw [if_pos (by omega), if_pos (by omega)]
        unfold subsetCheck
        simp only [happ]
      · rw [if_neg h2, if_neg h2]
  have hgen : generateEdgeData m contract (nerveNodes L) = generateEdgeData 1 contract (nerveNodes L) := by
    unfold generateEdgeData
    have : edgeStep (P := P) (C := C) m contract = edgeStep 1 contract := by funext s t; exact hstep s t
    rw [this]
  unfold nerve
  dsimp only
  rw [hgen]

/-! ### Transformed filter values -/

section
variable {K : Type} [Field K] [LinearOrder K] [IsStrictOrderedRing K] [FloorRing K]

theorem denseRank_mono (g : K → K) (hg : StrictMono g) (X : List K) : denseRank (X.map g) = denseRank X := by
  unfold denseRank
  rw [List.map_map]
  apply List.map_congr_left
  intro x _
  dsimp only [Function.comp]
  rw [List.filter_map]
  have h1 : X.filter ((fun y => decide (y < g x)) ∘ g) = X.filter fun y => decide (y < x) :=
    List.filter_congr fun y _ => by simp [hg.lt_iff_lt]
  rw [h1, List.dedup_map_of_injective hg.injective, List.length_map]

/-- An interval after an affine change of coordinates. -/
def moveIval (g : K → K) (I : Ival K) : Ival K := (I.1.map g, I.2.map g)

theorem inIval_move (g : K → K) (hg : StrictMono g) (I : Ival K) (x : K) : inIval (moveIval g I) (g x) = inIval I x := by
  obtain ⟨l, r⟩ := I
  unfold inIval moveIval
  cases l <;> cases r <;> simp [hg.lt_iff_lt]

theorem foldl_hom {α : Type} (g : α → α) (op : α → α → α) (h : ∀ x y, g (op x y) = op (g x) (g y)) (t : List α) (x : α) :
    (t.map g).foldl op (g x) = g (t.foldl op x) := by
  induction t generalizing x with
  | nil => rfl
  | cons y t ih => rw [List.map_cons, List.foldl_cons, List.foldl_cons, ← h, ih]

theorem linspace_affine (a b lo hi : K) (n : Nat) : linspace (a * lo + b) (a * hi + b) n = (linspace lo hi n).map fun x => a * x + b := by
  unfold linspace
  rw [List.map_map]
  apply List.map_congr_left
  intro i _
  dsimp only [Function.comp]
  have : (a * hi + b - (a * lo + b)) / ((n : K) - 1) = a * ((hi - lo) / ((n : K) - 1)) := by rw [← mul_div_assoc]; congr 1; ring
  rw [this]; ring

theorem coverLimits_affine (a b lo hi : K) (n : Nat) (f : K) :
    coverLimits (a * lo + b) (a * hi + b) n f = ((coverLimits lo hi n f).1.map fun x => a * x + b, (coverLimits lo hi n f).2.map fun x => a * x + b) := by
  unfold coverLimits
  dsimp only
  have hlen : (a * hi + b - (a * lo + b)) / ((n : K) - ((n : K) - 1) * f) = a * ((hi - lo) / ((n : K) - ((n : K) - 1) * f)) := by
    rw [← mul_div_assoc]; congr 1; ring
  rw [hlen]
  generalize (hi - lo) / ((n : K) - ((n : K) - 1) * f) = len
  have hlast : a * lo + b + ((n : K) - 1) * (1 - f) * (a * len) = a * (lo + ((n : K) - 1) * (1 - f) * len) + b := by ring
  rw [hlast, linspace_affine, List.map_map, List.map_map]
  congr 1
  apply List.map_congr_left
  intro x _
  dsimp only [Function.comp]
  ring

theorem openEnds_move (g : K → K) (ls rs : List (Option K)) : openEnds (ls.map (Option.map g)) (rs.map (Option.map g)) = (openEnds ls rs).map (moveIval g) := by
  have hset : ∀ (l : List (Option K)) (i : Nat), (l.map (Option.map g)).set i none = (l.set i none).map (Option.map g) := by
    intro l i
    rw [List.map_set]; rfl
  unfold openEnds
  rw [List.length_map, hset, hset, List.zip_map]
  rfl

theorem fitUniform_affine (a b : K) (ha : 0 < a) (n : Nat) (f : K) (X : List K) :
    fitUniform n f (X.map fun x => a * x + b) = (fitUniform n f X).map (List.map (moveIval fun x => a * x + b)) := by
  have hg : StrictMono fun x : K => a * x + b := fun x y h => by have := mul_lt_mul_of_pos_left h ha; dsimp only; linarith
  cases X with
  | nil => rfl
  | cons x t =>
    unfold fitUniform
    rw [List.map_cons]
    dsimp only
    have h1 := foldl_hom (fun x : K => a * x + b) min (fun x y => hg.monotone.map_min) t x
    have h2 := foldl_hom (fun x : K => a * x + b) max (fun x y => hg.monotone.map_max) t x
    rw [h1, h2]
    have h3 : (a * t.foldl min x + b = a * t.foldl max x + b ∧ 1 < n) ↔ (t.foldl min x = t.foldl max x ∧ 1 < n) :=
      and_congr_left' ⟨fun h => hg.injective h, fun h => by rw [h]⟩
    by_cases hc : t.foldl min x = t.foldl max x ∧ 1 < n
    · rw [if_pos hc, if_pos (h3.2 hc)]; rfl
    · rw [if_neg hc, if_neg (fun h => hc (h3.1 h)), coverLimits_affine]
      dsimp only [Except.map]
      rw [← openEnds_move, List.map_map, List.map_map, List.map_map, List.map_map]
      rfl

theorem coverMasks_move (g : K → K) (hg : StrictMono g) (ivs : List (Ival K)) (X : List K) : coverMasks (ivs.map (moveIval g)) (X.map g) = coverMasks ivs X := by
  unfold coverMasks
  rw [List.map_map]
  apply List.map_congr_left
  intro I _
  dsimp only [Function.comp]
  rw [List.map_map]
  apply List.map_congr_left
  intro x _
  exact inIval_move g hg I x

/-- A transformation of filter values that does not change a cover: strictly increasing for a balanced cover, `x ↦ a x + b` with `a > 0` for a uniform one. -/
def Harmless (balanced : Bool) (g : K → K) : Prop :=
  if balanced then StrictMono g else ∃ a b : K, 0 < a ∧ ∀ x, g x = a * x + b

theorem Harmless.mono {balanced : Bool} {g : K → K} (h : Harmless balanced g) : StrictMono g := by
  unfold Harmless at h
  cases balanced with
  | true => simpa using h
  | false =>
    simp only [Bool.false_eq_true, if_false] at h
    obtain ⟨a, b, ha, hg⟩ := h
    intro x y hxy
    rw [hg, hg]
    have := mul_lt_mul_of_pos_left hxy ha
    linarith

theorem balanced_harmless (n : Nat) (f : K) (g : K → K) (hg : StrictMono g) (X : List K) : fitTransformBalanced n f (X.map g) = fitTransformBalanced n f X := by
  unfold fitTransformBalanced
  rw [denseRank_mono g hg]

theorem oneDim_harmless (p : CoverParams K) (g : K → K) (hg : Harmless p.balanced g) (X : List K) :
    (coverFitTransform p ⟨none⟩ (X.map g)).2 = (coverFitTransform p ⟨none⟩ X).2 := by
  have hmono := hg.mono
  unfold coverFitTransform
  by_cases hb : p.balanced = true
  · rw [if_pos hb, if_pos hb, balanced_harmless p.n p.f g hmono]
  · rw [if_neg hb, if_neg hb]
    unfold Harmless at hg
    rw [if_neg hb] at hg
    obtain ⟨a, b, ha, hab⟩ := hg
    have hfun : g = fun x => a * x + b := funext hab
    have hfit := fitUniform_affine a b ha p.n p.f X
    rw [← hfun] at hfit
    rw [hfit]
    cases fitUniform p.n p.f X with
    | error e => rfl
    | ok ivs =>
      dsimp only [Except.map]
      rw [coverMasks_move g hmono]

theorem cubical_harmless (p : CoverParams K) (n : Nat) {cs cs' : List (List K)} (h : List.Forall₂ (fun c c' => ∃ g : K → K, Harmless p.balanced g ∧ c' = c.map g) cs cs') :
    (cubicalFitTransform p ⟨none⟩ n cs').2 = (cubicalFitTransform p ⟨none⟩ n cs).2 := by
  unfold cubicalFitTransform
  by_cases hb : p.balanced = true
  · rw [if_pos hb, if_pos hb]
    have hm := mapM_forall₂ (fun x => (fitTransformBalanced p.n p.f x).map Prod.fst) (fun x => (fitTransformBalanced p.n p.f x).map Prod.fst) id h (by
      rintro a a' ⟨g, hg, rfl⟩
      rw [balanced_harmless p.n p.f g hg.mono]
      cases fitTransformBalanced p.n p.f a <;> rfl)
    rw [hm]
    cases cs.mapM (fun x => (fitTransformBalanced p.n p.f x).map Prod.fst) with
    | error e => rfl
    | ok covers => simp [Except.map]
  · rw [if_neg hb, if_neg hb]
    -- limits move with the data, masks stay
    have hl : ∀ cs cs' : List (List K), List.Forall₂ (fun c c' => ∃ g : K → K, Harmless p.balanced g ∧ c' = c.map g) cs cs' →
        (∃ e, cs.mapM (coverFitLimits p) = .error e ∧ cs'.mapM (coverFitLimits p) = .error e) ∨
        ∃ l l', cs.mapM (coverFitLimits p) = .ok l ∧ cs'.mapM (coverFitLimits p) = .ok l' ∧
          List.zipWith (fun y ivs => coverMasks ivs y) cs' l' = List.zipWith (fun y ivs => coverMasks ivs y) cs l := by
      intro cs cs' h
      induction h with
      | nil => exact Or.inr ⟨[], [], rfl, rfl, rfl⟩
      | @cons c c' t t' h1 _ ih =>
        obtain ⟨g, hg, rfl⟩ := h1
        have hmono := hg.mono
        unfold Harmless at hg
        rw [if_neg hb] at hg
        obtain ⟨a, b, ha, hab⟩ := hg
        have hfun : g = fun x => a * x + b := funext hab
        have hfit := fitUniform_affine a b ha p.n p.f c
        rw [← hfun] at hfit
        have e1 : coverFitLimits p c = fitUniform p.n p.f c := by unfold coverFitLimits; rw [if_neg hb]
        have e2 : coverFitLimits p (c.map g) = (fitUniform p.n p.f c).map (List.map (moveIval g)) := by unfold coverFitLimits; rw [if_neg hb, hfit]
        rw [List.mapM_cons, List.mapM_cons, e1, e2]
        cases fitUniform p.n p.f c with
        | error e => exact Or.inl ⟨e, rfl, rfl⟩
        | ok ivs =>
          dsimp only [Except.map]
          rw [ok_bind, ok_bind]
          rcases ih with ⟨e, h3, h4⟩ | ⟨l, l', h3, h4, h5⟩
          · exact Or.inl ⟨e, by rw [h3]; rfl, by rw [h4]; rfl⟩
          · refine Or.inr ⟨ivs :: l, ivs.map (moveIval g) :: l', by rw [h3]; rfl, by rw [h4]; rfl, ?_⟩
            rw [List.zipWith_cons_cons, List.zipWith_cons_cons, h5, coverMasks_move g hmono]
    rcases hl cs cs' h with ⟨e, h1, h2⟩ | ⟨l, l', h1, h2, h3⟩
    · rw [h1, h2]
    · rw [h1, h2]
      simp only [cubicalMasks_eq, h3]

theorem column_mapIdx (g : Nat → K → K) (V : List (List K)) (j : Nat) : column (V.map fun r => r.mapIdx g) j = (column V j).map (g j) := by
  unfold column
  rw [List.filterMap_map, List.map_filterMap]
  apply List.filterMap_congr
  intro r _
  dsimp only [Function.comp]
  rw [List.getElem?_mapIdx]

theorem cover_harmless (cover : CoverKind K) (p : CoverParams K) (hcover : cover = .oneDimensional p ∨ cover = .cubical p) (g : Nat → K → K)
    (hg : ∀ j, Harmless p.balanced (g j)) (V : List (List K)) : coverKindFitTransform cover (V.map fun r => r.mapIdx g) = coverKindFitTransform cover V := by
  have hhead : ((V.map fun r => r.mapIdx g).headD []).length = (V.headD []).length := by
    cases V with
    | nil => rfl
    | cons a t => simp
  unfold coverKindFitTransform
  rw [hhead, List.length_map]
  by_cases hd : V.length = 0 ∨ (V.headD []).length = 0
  · rw [if_pos hd, if_pos hd]
  · rw [if_neg hd, if_neg hd]
    rcases hcover with rfl | rfl
    · dsimp only
      rw [column_mapIdx, oneDim_harmless p (g 0) (hg 0)]
    · dsimp only
      apply cubical_harmless
      unfold columns
      rw [hhead, List.forall₂_map_left_iff, List.forall₂_map_right_iff, List.forall₂_same]
      intro j _
      exact ⟨g j, hg j, column_mapIdx g V j⟩

end

end Gtda.Props.MapperInv

namespace Gtda.Props
open Gtda.Py Gtda.Mapper Gtda.Spec Gtda.Props.MapperInv

section
variable {K : Type} [Field K] [LinearOrder K] [IsStrictOrderedRing K] [FloorRing K]

/-- From masks to graphs, before and after a reordering of the samples. -/
theorem MapperInv.graphs {W C : Type} [DecidableEq C] (c : Clusterer K W C) (pre : Bool) (hmix : c.isMixin = true) (hmet : c.metrics = [pre] ∨ (c.metrics = [] ∧ pre = false))
    (hlab : ∀ sub, sub ≠ [] → ∃ ls, c.labels sub none = .ok ls ∧ ls.length = sub.length)
    (hinv : ∀ sub sub' τ ls, Reorders sub.length τ → IsPortion pre sub τ sub' → c.labels sub none = .ok ls → ∃ ls', c.labels sub' none = .ok ls' ∧ SameGrouping τ ls ls')
    (σ : List Nat) (Y Y' : List (List K)) (hσ : Reorders Y.length σ) (hp : IsPortion pre Y σ Y') (hY : Y ≠ []) (hrow : ∀ r ∈ Y, r ≠ [])
    (hsq : pre = true → ∀ r ∈ Y, r.length = Y.length)
    (masks : List (List Bool)) (hm : ∀ col ∈ masks, col.length = Y.length ∧ true ∈ col) (hne : masks ≠ []) (order order' : List Nat)
    (horder : ∀ k, k < masks.length → k ∈ order ∧ k ∈ order') (minInt : Int) (store : Bool) (fuel : Nat) :
    ∃ G G', (parallelClusteringFit c order Y masks none >>= nerve minInt store false fuel) = .ok (some G) ∧
      (parallelClusteringFit c order' Y' (masks.map (pickB σ)) none >>= nerve minInt store false fuel) = .ok (some G') ∧ Reordered σ G G' := by
  classical
  have hY'l : Y'.length = Y.length := by rw [isPortion_length hp, reorders_length hσ]
  -- the portions of both data sets and their labels
  have hport : ∀ col ∈ masks, ∃ ls ls' τ, (∀ sub, IsPortion pre Y (membersOf col) sub → c.labels sub none = .ok ls) ∧ ls.length = (membersOf col).length ∧
      (∀ sub', IsPortion pre Y' (membersOf (pickB σ col)) sub' → c.labels sub' none = .ok ls') ∧ SameGrouping τ ls ls' ∧
      Reorders (membersOf col).length τ ∧ τ.length = (membersOf (pickB σ col)).length ∧
      ∀ a t : Nat, τ[a]? = some t → ∃ j i, (membersOf (pickB σ col))[a]? = some j ∧ σ[j]? = some i ∧ (membersOf col)[t]? = some i := by
    intro col hcol
    obtain ⟨hcl, hct⟩ := hm col hcol
    obtain ⟨τ, hτ, hτl, hτs⟩ := induced hσ col hcl
    obtain ⟨sub, -, h2⟩ := portion_ok pre Y (membersOf col) (fun i hi => by rw [← hcl]; exact membersOf_lt col i hi) hsq
    have hmne : membersOf col ≠ [] := by
      obtain ⟨i, hi⟩ := List.mem_iff_getElem?.1 hct
      exact List.ne_nil_of_mem ((mem_membersOf col i).2 hi)
    have hsubl := isPortion_length h2
    obtain ⟨ls, h3, h4⟩ := hlab sub (by intro h; rw [h] at hsubl; exact hmne (List.length_eq_zero_iff.1 hsubl.symm))
    have hsq' : pre = true → ∀ r ∈ Y', r.length = Y'.length := by
      intro hpre r hr
      subst hpre
      rw [isPortion_iff] at hp
      obtain ⟨a, ha⟩ := List.mem_iff_getElem?.1 hr
      have hal : a < σ.length := by rw [← hp.1]; exact (List.getElem?_eq_some_iff.1 ha).1
      obtain ⟨row, r', c1, c2, c3⟩ := hp.2 a _ (List.getElem?_eq_getElem hal)
      rw [ha] at c2
      simp only [Option.some.injEq] at c2
      subst c2
      rw [((picks_iff _ _ _).1 c3).1, hY'l, reorders_length hσ]
    obtain ⟨sub', -, h2'⟩ := portion_ok pre Y' (membersOf (pickB σ col)) (fun i hi => by
      have := membersOf_lt _ i hi
      rw [pickB_length, reorders_length hσ] at this
      rw [hY'l]; exact this) hsq'
    obtain ⟨ls', h5, h6⟩ := hinv sub sub' τ ls (by rw [hsubl]; exact hτ) (portion_comp h2 hp h2' hτl hτs) h3
    exact ⟨ls, ls', τ, fun s hs => by rw [isPortion_unique h2 hs]; exact h3, by rw [h4, hsubl], fun s hs => by rw [isPortion_unique h2' hs]; exact h5, h6, hτ, hτl, hτs⟩
  choose! lsOf lsOf' τOf q1 q2 q3 q4 q5 q6 q7 using hport
  have hcolk : ∀ (k : Nat) (col : List Bool), masks[k]? = some col → masks.getD k [] = col := fun k col hk => by rw [List.getD_eq_getElem?_getD, hk]; rfl
  obtain ⟨G, g1, g2⟩ := structure_of_masks c pre hmix hmet Y hY (by
      cases Y with
      | nil => exact absurd rfl hY
      | cons a t => exact hrow a (by simp)) hsq masks hm hne (fun k => lsOf (masks.getD k [])) (by
      intro k col sub hk hs
      have hcol := List.mem_of_getElem? hk
      rw [hcolk k col hk]
      exact ⟨q1 col hcol sub hs, q2 col hcol⟩) order (fun k hk => (horder k hk).1) minInt store fuel
  have hmk : ∀ (k : Nat) (col' : List Bool), (masks.map (pickB σ))[k]? = some col' ↔ ∃ col, masks[k]? = some col ∧ pickB σ col = col' := by
    intro k col'
    rw [List.getElem?_map, Option.map_eq_some_iff]
  have hY'ne : Y' ≠ [] := by
    intro h; rw [h] at hY'l; exact hY (List.length_eq_zero_iff.1 hY'l.symm)
  have hrow' : ∀ r ∈ Y', r ≠ [] := by
    intro r hr
    obtain ⟨a, ha⟩ := List.mem_iff_getElem?.1 hr
    cases hpre : pre with
    | false =>
      rw [hpre] at hp
      simp only [IsPortion, Bool.false_eq_true, if_false] at hp
      rw [picks_iff] at hp
      have hal : a < σ.length := by rw [← hp.1]; exact (List.getElem?_eq_some_iff.1 ha).1
      obtain ⟨x, c1, c2⟩ := hp.2 a _ (List.getElem?_eq_getElem hal)
      rw [ha] at c2
      simp only [Option.some.injEq] at c2
      subst c2
      exact hrow _ (List.mem_of_getElem? c1)
    | true =>
      rw [hpre, isPortion_iff] at hp
      have hal : a < σ.length := by rw [← hp.1]; exact (List.getElem?_eq_some_iff.1 ha).1
      obtain ⟨row, r', c1, c2, c3⟩ := hp.2 a _ (List.getElem?_eq_getElem hal)
      rw [ha] at c2
      simp only [Option.some.injEq] at c2
      subst c2
      intro h
      have := ((picks_iff _ _ _).1 c3).1
      rw [h] at this
      simp at this
      omega
  obtain ⟨G', g1', g2'⟩ := structure_of_masks c pre hmix hmet Y' hY'ne (by
      cases Y' with
      | nil => exact absurd rfl hY'ne
      | cons a t => exact hrow' a (by simp)) (by
      intro hpre r hr
      subst hpre
      rw [isPortion_iff] at hp
      obtain ⟨a, ha⟩ := List.mem_iff_getElem?.1 hr
      have hal : a < σ.length := by rw [← hp.1]; exact (List.getElem?_eq_some_iff.1 ha).1
      obtain ⟨row, r', c1, c2, c3⟩ := hp.2 a _ (List.getElem?_eq_getElem hal)
      rw [ha] at c2
      simp only [Option.some.injEq] at c2
      subst c2
      rw [((picks_iff _ _ _).1 c3).1, hY'l, reorders_length hσ]) (masks.map (pickB σ)) (by
      intro col' hcol'
      obtain ⟨col, hcol, rfl⟩ := List.mem_map.1 hcol'
      obtain ⟨h1, h2⟩ := hm col hcol
      refine ⟨by rw [pickB_length, hY'l, reorders_length hσ], ?_⟩
      have h3 := pickB_any hσ h1
      have h4 : col.any id = true := List.any_eq_true.2 ⟨true, h2, rfl⟩
      rw [h4, List.any_eq_true] at h3
      obtain ⟨b, hb, hb'⟩ := h3
      obtain rfl : b = true := by simpa using hb'
      exact hb) (by simpa using hne) (fun k => lsOf' (masks.getD k [])) (by
      intro k col' sub hk hs
      obtain ⟨col, hk', rfl⟩ := (hmk k col').1 hk
      have hcol := List.mem_of_getElem? hk'
      rw [hcolk k col hk']
      exact ⟨q3 col hcol sub hs, by rw [(q4 col hcol).1, q6 col hcol]⟩) order' (fun k hk => (horder k (by simpa using hk)).2) minInt store fuel
  refine ⟨G, G', g1, g1', ?_⟩
  rw [hY'l] at g2'
  refine reordered_of_structure hσ g2 g2' ?_
  intro k a b i j hai hbj
  rw [g2.together, g2'.together]
  constructor
  · rintro ⟨col', p, q, l, h1, h2, h3, h4, h5⟩
    obtain ⟨col, hk, rfl⟩ := (hmk k col').1 h1
    have hcol := List.mem_of_getElem? hk
    rw [hcolk k col hk] at h4 h5 ⊢
    have hpl : p < (τOf col).length := by rw [q6 col hcol]; exact (List.getElem?_eq_some_iff.1 h2).1
    have hql : q < (τOf col).length := by rw [q6 col hcol]; exact (List.getElem?_eq_some_iff.1 h3).1
    obtain ⟨j1, i1, b1, b2, b3⟩ := q7 col hcol p _ (List.getElem?_eq_getElem hpl)
    obtain ⟨j2, i2, d1, d2, d3⟩ := q7 col hcol q _ (List.getElem?_eq_getElem hql)
    rw [h2] at b1; rw [h3] at d1
    simp only [Option.some.injEq] at b1 d1
    subst b1 d1
    rw [hai] at b2; rw [hbj] at d2
    simp only [Option.some.injEq] at b2 d2
    subst b2 d2
    have hg := ((q4 col hcol).2 p q _ _ (List.getElem?_eq_getElem hpl) (List.getElem?_eq_getElem hql)).1 (by rw [h4, h5])
    have hlt : (τOf col)[p] < (lsOf col).length := by rw [q2 col hcol]; exact (List.getElem?_eq_some_iff.1 b3).1
    refine ⟨col, _, _, (lsOf col)[(τOf col)[p]], hk, b3, d3, List.getElem?_eq_getElem hlt, ?_⟩
    rw [← hg, List.getElem?_eq_getElem hlt]
  · rintro ⟨col, p, q, l, h1, h2, h3, h4, h5⟩
    have hcol := List.mem_of_getElem? h1
    rw [hcolk k col h1] at h4 h5 ⊢
    -- the positions of `a` and `b` among the members of the reordered set
    obtain ⟨p', hp'⟩ := reorders_surj (q5 col hcol) (List.getElem?_eq_some_iff.1 h2).1
    obtain ⟨q', hq'⟩ := reorders_surj (q5 col hcol) (List.getElem?_eq_some_iff.1 h3).1
    obtain ⟨j1, i1, b1, b2, b3⟩ := q7 col hcol p' _ hp'
    obtain ⟨j2, i2, d1, d2, d3⟩ := q7 col hcol q' _ hq'
    rw [h2] at b3; rw [h3] at d3
    simp only [Option.some.injEq] at b3 d3
    subst b3 d3
    have e1 := reorders_inj hσ hai b2
    have e2 := reorders_inj hσ hbj d2
    subst e1 e2
    have hg := ((q4 col hcol).2 p' q' _ _ hp' hq').2 (by rw [h4, h5])
    have hlt : p' < (lsOf' col).length := by rw [(q4 col hcol).1]; exact (List.getElem?_eq_some_iff.1 hp').1
    refine ⟨pickB σ col, p', q', (lsOf' col)[p'], (hmk k _).2 ⟨col, h1, rfl⟩, b1, d1, List.getElem?_eq_getElem hlt, ?_⟩
    rw [← hg, List.getElem?_eq_getElem hlt]

/-- **C128, order of the samples.** Let `σ` reorder the samples, and let the steps before the cover and the clusterer return reordered outputs on the reordered data `X'`
(`V'` for the filter values, `Y'` for the data to be clustered; rows and columns for distance matrices), as they do when they work sample by sample. Let the
clusterer find the same clusters, under whatever names, when its input is reordered. Then (without contraction) the Mapper graphs of both data sets are the same: each node
of one graph corresponds to exactly one node of the other, with the same pullback set and the same samples, and two nodes are joined by an edge of weight `w` exactly when
the corresponding nodes are. Parallel tasks may run in different orders in the two runs. -/
theorem C128_sample_order {W C : Type} [DecidableEq C] (scaler filterFunc prep : List (List K) → PyM (List (List K))) (cover : CoverKind K) (p : CoverParams K)
    (d : Nat) (hcover : (cover = .oneDimensional p ∧ d = 1) ∨ (cover = .cubical p ∧ 1 ≤ d)) (hn : 1 ≤ p.n) (hf0 : 0 < p.f) (hf1 : p.f < 1)
    (σ : List Nat) (X S V Y X' S' V' Y' : List (List K)) (hσ : Reorders X.length σ) (hX : X ≠ [])
    (hS : scaler X = .ok S) (hV : filterFunc S = .ok V) (hY : prep X = .ok Y) (hS' : scaler X' = .ok S') (hV' : filterFunc S' = .ok V') (hY' : prep X' = .ok Y')
    (hVl : V.length = X.length) (hVd : ∀ r ∈ V, r.length = d) (hYl : Y.length = X.length) (hrow : ∀ r ∈ Y, r ≠ [])
    (hconst : p.n = 1 ∨ ∀ j, j < d → ∃ r ∈ V, ∃ s ∈ V, r[j]? ≠ s[j]?)
    (c : Clusterer K W C) (pre : Bool) (hVσ : Picks V σ V') (hYσ : IsPortion pre Y σ Y')
    (hmix : c.isMixin = true) (hmet : c.metrics = [pre] ∨ (c.metrics = [] ∧ pre = false))
    (hsq : pre = true → ∀ r ∈ Y, r.length = Y.length) (hlab : ∀ sub, sub ≠ [] → ∃ ls, c.labels sub none = .ok ls ∧ ls.length = sub.length)
    (hinv : ∀ sub sub' τ ls, Reorders sub.length τ → IsPortion pre sub τ sub' → c.labels sub none = .ok ls → ∃ ls', c.labels sub' none = .ok ls' ∧ SameGrouping τ ls ls')
    (minInt : Int) (store : Bool) (fuel : Nat) :
    ∃ m : Nat, ∀ order order' : List Nat, (∀ k, k < m → k ∈ order ∧ k ∈ order') →
      ∃ G G', mapperFitTransform scaler filterFunc prep cover c order minInt store false fuel X = .ok (some G) ∧
        mapperFitTransform scaler filterFunc prep cover c order' minInt store false fuel X' = .ok (some G') ∧
        (∀ v' ∈ G'.nodes, ∃ v ∈ G.nodes, (v'.set = v.set ∧ SameSamples σ v'.elements v.elements) ∧
          ∀ u ∈ G.nodes, v'.set = u.set ∧ SameSamples σ v'.elements u.elements → u = v) ∧
        (∀ v ∈ G.nodes, ∃ v' ∈ G'.nodes, (v'.set = v.set ∧ SameSamples σ v'.elements v.elements) ∧
          ∀ u' ∈ G'.nodes, u'.set = v.set ∧ SameSamples σ u'.elements v.elements → u' = v') ∧
        ∀ (a b a' b' : Nat) u v u' v', G.nodes[a]? = some u → G.nodes[b]? = some v → G'.nodes[a']? = some u' → G'.nodes[b']? = some v' →
          u'.set = u.set ∧ SameSamples σ u'.elements u.elements → v'.set = v.set ∧ SameSamples σ v'.elements v.elements →
          ∀ w : Nat, (∃ e ∈ G.edges, Ends e.src e.dst a b ∧ e.weight = w) ↔ ∃ e' ∈ G'.edges, Ends e'.src e'.dst a' b' ∧ e'.weight = w := by
  have hYne : Y ≠ [] := by intro h; rw [h] at hYl; exact hX (List.length_eq_zero_iff.1 hYl.symm)
  have hVne : V ≠ [] := by intro h; rw [h] at hVl; exact hX (List.length_eq_zero_iff.1 hVl.symm)
  have hrow0 : Y.headD [] ≠ [] := by
    cases Y with
    | nil => exact absurd rfl hYne
    | cons a t => exact hrow a (by simp)
  obtain ⟨masks, hm1, hm2, hm3⟩ := C54_mapper_partial scaler filterFunc prep cover p d hcover hn hf0 hf1 X S V Y hX hS hV hY hVl hVd hYl hrow0 hconst c pre hmix hmet hsq
    hlab (List.range 0) minInt store fuel
  obtain ⟨-, hmt, hmne⟩ : (∀ col ∈ masks, col.length = X.length) ∧ (∀ col ∈ masks, true ∈ col) ∧ masks ≠ [] := by
    obtain ⟨masks', k1, -, k3⟩ := C54_mapper_partial scaler filterFunc prep cover p d hcover hn hf0 hf1 X S V Y hX hS hV hY hVl hVd hYl hrow0 hconst c pre hmix hmet hsq
      hlab (List.range masks.length) minInt store fuel
    rw [hm1] at k1
    simp only [Except.ok.injEq] at k1
    subst k1
    obtain ⟨G, -, h2, h3, -⟩ := k3 (fun k hk => List.mem_range.2 hk)
    refine ⟨hm2, ?_, ?_⟩
    · -- every returned set contains a sample: the masks have been cleaned
      intro col hcol
      obtain ⟨cols, rfl⟩ := masks_clean cover V masks hm1
      exact (((C43_clean_masks cols).1 col).1 hcol).2
    · obtain ⟨v, hv, -⟩ := h2 0 (List.length_pos_of_ne_nil hX)
      obtain ⟨-, col, hc, -⟩ := h3 v hv
      exact List.ne_nil_of_mem (List.mem_of_getElem? hc)
  refine ⟨masks.length, fun order order' horder => ?_⟩
  obtain ⟨G, G', e1, e2, e3⟩ := MapperInv.graphs c pre hmix hmet hlab hinv σ Y Y' (by rw [hYl]; exact hσ) hYσ hYne hrow hsq masks
    (fun col hcol => ⟨by rw [hm2 col hcol, hYl], hmt col hcol⟩) hmne order order' horder minInt store fuel
  have hcov := cover_reordered cover (by rw [hVl]; exact hσ) hVd hVne hVσ
  rw [hm1] at hcov
  refine ⟨G, G', ?_, ?_, e3.forth, e3.back, e3.edges⟩
  · unfold mapperFitTransform
    rw [hY, ok_bind, hS, ok_bind, hV, ok_bind, hm1, ok_bind]
    exact e1
  · unfold mapperFitTransform
    rw [hY', ok_bind, hS', ok_bind, hV', ok_bind, hcov]
    exact e2

/-- The pipeline up to the labels does not look at the parameters of `Nerve`. -/
theorem MapperInv.mapper_map {W C : Type} [DecidableEq C] (scaler filterFunc prep : List (List K) → PyM (List (List K))) (cover : CoverKind K) (c : Clusterer K W C)
    (order : List Nat) (m m' : Int) (store store' contract : Bool) (fuel : Nat) (φ : Graph Nat C → Graph Nat C)
    (h : ∀ L : List (List (Nat × C)), nerve m' store' contract fuel L = (nerve m store contract fuel L).map (Option.map φ)) (X : List (List K)) :
    mapperFitTransform scaler filterFunc prep cover c order m' store' contract fuel X =
      (mapperFitTransform scaler filterFunc prep cover c order m store contract fuel X).map (Option.map φ) := by
  unfold mapperFitTransform
  cases prep X with
  | error e => rfl
  | ok Y =>
    rw [ok_bind, ok_bind]
    cases scaler X with
    | error e => rfl
    | ok S =>
      rw [ok_bind, ok_bind]
      cases filterFunc S with
      | error e => rfl
      | ok V =>
        rw [ok_bind, ok_bind]
        cases coverKindFitTransform cover V with
        | error e => rfl
        | ok masks =>
          rw [ok_bind, ok_bind]
          cases parallelClusteringFit c order Y masks none with
          | error e => rfl
          | ok L => rw [ok_bind, ok_bind]; exact h L

/-- **C128, `min_intersection`.** Raising `min_intersection` from `m` to `m'` removes the edges of weight below `m'` and changes nothing else (nodes, their numbers and
their attributes, the other edges, exceptions), with and without contraction of nodes; values below `1` have the effect of `1`. -/
theorem C128_min_intersection {W C : Type} [DecidableEq C] (scaler filterFunc prep : List (List K) → PyM (List (List K))) (cover : CoverKind K) (c : Clusterer K W C)
    (order : List Nat) (m m' : Int) (store contract : Bool) (fuel : Nat) (X : List (List K)) :
    (m ≤ m' → mapperFitTransform scaler filterFunc prep cover c order m' store contract fuel X =
      (mapperFitTransform scaler filterFunc prep cover c order m store contract fuel X).map (Option.map fun G =>
        ⟨G.nodes, G.edges.filter fun e => decide (m' ≤ (e.weight : Int))⟩)) ∧
    (m ≤ 1 → mapperFitTransform scaler filterFunc prep cover c order m store contract fuel X =
      mapperFitTransform scaler filterFunc prep cover c order 1 store contract fuel X) := by
  constructor
  · intro h
    exact MapperInv.mapper_map scaler filterFunc prep cover c order m m' store store contract fuel (keepHeavy m') (fun L => nerve_heavy m m' h store contract fuel L) X
  · intro h
    rw [MapperInv.mapper_map scaler filterFunc prep cover c order 1 m store store contract fuel id (fun L => by
      rw [nerve_small m h]
      cases nerve 1 store contract fuel L <;> simp [Except.map]) X]
    cases mapperFitTransform scaler filterFunc prep cover c order 1 store contract fuel X <;> simp [Except.map]

/-- **C128, `store_edge_elements`.** The graph without stored edge elements is the graph with them, with the attribute removed. -/
theorem C128_store_edge_elements {W C : Type} [DecidableEq C] (scaler filterFunc prep : List (List K) → PyM (List (List K))) (cover : CoverKind K) (c : Clusterer K W C)
    (order : List Nat) (m : Int) (contract : Bool) (fuel : Nat) (X : List (List K)) :
    mapperFitTransform scaler filterFunc prep cover c order m false contract fuel X =
      (mapperFitTransform scaler filterFunc prep cover c order m true contract fuel X).map (Option.map fun G =>
        ⟨G.nodes, G.edges.map fun e => ⟨e.src, e.dst, e.weight, none⟩⟩) :=
  MapperInv.mapper_map scaler filterFunc prep cover c order m m true false contract fuel forget (fun L => nerve_forget m contract fuel L) X

/-- **C128, filter values.** Let `g j` transform column `j` of the filter values: any strictly increasing function if the cover is balanced, a function `x ↦ a x + b` with
`a > 0` (a change of unit and origin) if it is uniform. Then the whole result of the Mapper pipeline, exceptions included, is the same as without the transformation. -/
theorem C128_filter_values {W C : Type} [DecidableEq C] (scaler filterFunc filterFunc' prep : List (List K) → PyM (List (List K))) (cover : CoverKind K) (p : CoverParams K)
    (hcover : cover = .oneDimensional p ∨ cover = .cubical p) (g : Nat → K → K)
    (hg : ∀ j, if p.balanced then (∀ x y, x < y → g j x < g j y) else ∃ a b : K, 0 < a ∧ ∀ x, g j x = a * x + b)
    (hfilter : ∀ S, filterFunc' S = (filterFunc S).map fun V => V.map fun r => r.mapIdx g)
    (c : Clusterer K W C) (order : List Nat) (m : Int) (store contract : Bool) (fuel : Nat) (X : List (List K)) :
    mapperFitTransform scaler filterFunc' prep cover c order m store contract fuel X =
      mapperFitTransform scaler filterFunc prep cover c order m store contract fuel X := by
  have hg' : ∀ j, Harmless p.balanced (g j) := by
    intro j
    have := hg j
    unfold Harmless
    cases hb : p.balanced with
    | true => rw [hb] at this; simp only [if_true] at this ⊢; exact fun x y h => this x y h
    | false => rw [hb] at this; exact this
  unfold mapperFitTransform
  cases prep X with
  | error e => rfl
  | ok Y =>
    rw [ok_bind, ok_bind]
    cases scaler X with
    | error e => rfl
    | ok S =>
      rw [ok_bind, ok_bind, hfilter]
      cases filterFunc S with
      | error e => rfl
      | ok V =>
        dsimp only [Except.map]
        rw [ok_bind, ok_bind, cover_harmless cover p hcover g hg' V]

end

/-- A clusterer for examples: samples with equal rows form a cluster, named by the position of its first member (so names depend on the order of the samples). -/
def equalRows : Clusterer ℚ Nat Nat := ⟨true, [], false, fun sub _ => .ok (sub.map fun r => sub.idxOf r)⟩

/-- Non-vacuity: this clusterer meets the conditions of `C128_sample_order`. -/
theorem MapperInv.equalRows_invariant (sub sub' : List (List ℚ)) (τ ls : List Nat) (hτ : Reorders sub.length τ) (hp : IsPortion false sub τ sub')
    (hl : equalRows.labels sub none = .ok ls) : ∃ ls', equalRows.labels sub' none = .ok ls' ∧ SameGrouping τ ls ls' := by
  simp only [IsPortion, Bool.false_eq_true, if_false] at hp
  rw [picks_iff] at hp
  simp only [equalRows, Except.ok.injEq] at hl
  subst hl
  refine ⟨_, rfl, by rw [List.length_map, hp.1], ?_⟩
  intro a b i j ha hb
  obtain ⟨x, h1, h2⟩ := hp.2 a i ha
  obtain ⟨y, h3, h4⟩ := hp.2 b j hb
  rw [List.getElem?_map, List.getElem?_map, List.getElem?_map, List.getElem?_map, h1, h2, h3, h4]
  simp only [Option.map_some, Option.some.injEq]
  rw [List.idxOf_inj (List.mem_of_getElem? h2), List.idxOf_inj (List.mem_of_getElem? h1)]

example : ∀ sub : List (List ℚ), sub ≠ [] → ∃ ls, equalRows.labels sub none = .ok ls ∧ ls.length = sub.length := fun sub _ => ⟨_, rfl, by simp⟩

/-- Non-vacuity of `C128_sample_order`: five samples (two of them equal) in two orders. The reordered graph has its nodes in another order and with other cluster names. -/
example : Reorders 5 [4, 1, 0, 3, 2] ∧ Picks [[0], [4], [5], [4], [9]] [4, 1, 0, 3, 2] ([[9], [4], [0], [4], [5]] : List (List ℚ)) ∧
    mapperFitTransform (K := ℚ) .ok .ok .ok (.oneDimensional ⟨false, 2, 1 / 2⟩) equalRows [0, 1] 1 true false 0 [[0], [4], [5], [4], [9]] =
      .ok (some ⟨[⟨0, 0, [0]⟩, ⟨0, 1, [1, 3]⟩, ⟨1, 0, [1, 3]⟩, ⟨0, 2, [2]⟩, ⟨1, 1, [2]⟩, ⟨1, 3, [4]⟩], [⟨1, 2, 2, some [1, 3]⟩, ⟨3, 4, 1, some [2]⟩]⟩) ∧
    mapperFitTransform (K := ℚ) .ok .ok .ok (.oneDimensional ⟨false, 2, 1 / 2⟩) equalRows [1, 0] 1 true false 0 [[9], [4], [0], [4], [5]] =
      .ok (some ⟨[⟨1, 0, [0]⟩, ⟨0, 0, [1, 3]⟩, ⟨1, 1, [1, 3]⟩, ⟨0, 1, [2]⟩, ⟨0, 3, [4]⟩, ⟨1, 3, [4]⟩], [⟨1, 2, 2, some [1, 3]⟩, ⟨4, 5, 1, some [4]⟩]⟩) := by
  refine ⟨by unfold Reorders; decide, by unfold Picks; decide, ?_, ?_⟩ <;> decide +kernel

/-- Non-vacuity of `C128_min_intersection`: with `min_intersection = 2` one of the two edges is left. -/
example : mapperFitTransform (K := ℚ) .ok .ok .ok (.oneDimensional ⟨false, 2, 1 / 2⟩) equalRows [0, 1] 2 false false 0 [[0], [4], [5], [4], [9]] =
      .ok (some ⟨[⟨0, 0, [0]⟩, ⟨0, 1, [1, 3]⟩, ⟨1, 0, [1, 3]⟩, ⟨0, 2, [2]⟩, ⟨1, 1, [2]⟩, ⟨1, 3, [4]⟩], [⟨1, 2, 2, none⟩]⟩) := by decide +kernel

/-- Non-vacuity of `C128_filter_values`: cubes of filter values with a balanced cover. -/
example : mapperFitTransform (K := ℚ) .ok (fun S => .ok (S.map fun r => r.map fun x => x ^ 3)) .ok (.oneDimensional ⟨true, 2, 1 / 2⟩) equalRows [0, 1] 1 false false 0 [[0], [4], [5], [9]] =
    mapperFitTransform (K := ℚ) .ok .ok .ok (.oneDimensional ⟨true, 2, 1 / 2⟩) equalRows [0, 1] 1 false false 0 [[0], [4], [5], [9]] := by decide +kernel

/-- **Uniform covers see more than the order of filter values: an increasing function that is not affine changes the graph.** Cubing the filter values `0, 4, 5, 9` removes the overlap of
the two pullback sets. -/
theorem C128_refuted_increasing :
    mapperFitTransform (K := ℚ) .ok .ok .ok (.oneDimensional ⟨false, 2, 1 / 2⟩) oneCluster [0, 1] 1 false false 0 [[0], [4], [5], [9]] =
      .ok (some ⟨[⟨0, 0, [0, 1, 2]⟩, ⟨1, 0, [1, 2, 3]⟩], [⟨0, 1, 2, none⟩]⟩) ∧
    mapperFitTransform (K := ℚ) .ok (fun S => .ok (S.map fun r => r.map fun x => x ^ 3)) .ok (.oneDimensional ⟨false, 2, 1 / 2⟩) oneCluster [0, 1] 1 false false 0 [[0], [4], [5], [9]] =
      .ok (some ⟨[⟨0, 0, [0, 1, 2]⟩, ⟨1, 0, [3]⟩], []⟩) := by
  constructor <;> decide +kernel

/-- **With `contract_nodes=True` the graph depends on the order of the samples.** The same three samples in opposite order: sample `10` is in no node of the first graph, and
in a node of the second one. -/
theorem C128_refuted_contracted :
    ∃ G G', mapperFitTransform (K := ℚ) .ok .ok .ok (.oneDimensional ⟨false, 3, 1 / 2⟩) oneCluster [0, 1, 2] 1 false true 10 [[0], [6], [10]] = .ok (some G) ∧
      mapperFitTransform (K := ℚ) .ok .ok .ok (.oneDimensional ⟨false, 3, 1 / 2⟩) oneCluster [0, 1, 2] 1 false true 10 [[10], [6], [0]] = .ok (some G') ∧
      (∀ v ∈ G.nodes, 2 ∉ v.elements) ∧ ∃ v ∈ G'.nodes, 0 ∈ v.elements := by
  refine ⟨⟨[⟨0, 0, [0]⟩, ⟨1, 0, [1]⟩], []⟩, ⟨[⟨2, 0, [0, 1]⟩, ⟨0, 0, [2]⟩], []⟩, ?_, ?_, ?_, ?_⟩ <;> decide +kernel

end Gtda.Props
