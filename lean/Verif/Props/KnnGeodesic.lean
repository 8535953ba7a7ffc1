import Verif.Model.KnnGeodesic
import Verif.Spec.KnnGeodesic
import Verif.Props.Neighbors
import Verif.Props.GraphSymmetry

set_option autoImplicit false
set_option linter.unusedSectionVars false

/-!
# C151: geodesic distances in graphs of nearest neighbours
-/

namespace Gtda.Props
open Gtda.Py Gtda.Checks Gtda.Graphs Gtda.KnnGeodesic Gtda.Spec Gtda.Spec.KnnGeodesic

section
variable {K : Type} [Field K] [LinearOrder K] [IsStrictOrderedRing K]

theorem KnnGeo.edge (g : Neighbors.Graph K) (i j : Nat) (w : K) : DocEdge (asInput g) i j w ↔ ∃ r, g.rows[i]? = some r ∧ (j, w) ∈ r := by
  unfold asInput DocEdge
  simp only [List.mem_flatten, List.mem_mapIdx]
  constructor
  · rintro ⟨l, ⟨a, ha, rfl⟩, hl⟩
    obtain ⟨e, he, h⟩ := List.mem_map.1 hl
    simp only [Prod.mk.injEq] at h
    obtain ⟨⟨rfl, rfl⟩, rfl⟩ := h
    exact ⟨g.rows[a], List.getElem?_eq_getElem ha, he⟩
  · rintro ⟨r, hr, h⟩
    obtain ⟨hi, rfl⟩ := List.getElem?_eq_some_iff.1 hr
    exact ⟨_, ⟨i, hi, rfl⟩, List.mem_map.2 ⟨(j, w), h, rfl⟩⟩

theorem KnnGeo.wellFormed {n k : Nat} {d w : Nat → Nat → K} {g : Neighbors.Graph K} (h : Spec.Neighbors.IsKnn n k d w g) : WellFormed (asInput g) := by
  constructor
  · intro e he
    obtain ⟨⟨i, j⟩, v⟩ := e
    obtain ⟨r, hr, hm⟩ := (KnnGeo.edge g i j v).1 he
    have hi : i < g.rows.length := (List.getElem?_eq_some_iff.1 hr).1
    rw [h.rows] at hi
    rw [h.vertices]
    exact ⟨hi, h.range r (List.mem_of_getElem? hr) _ hm⟩
  · rw [List.map_flatten, List.nodup_flatten]
    constructor
    · intro l hl
      obtain ⟨m, hm, rfl⟩ := List.mem_map.1 hl
      obtain ⟨i, hi, rfl⟩ := List.mem_mapIdx.1 hm
      rw [List.map_map]
      have e : ((fun e : (Nat × Nat) × K => e.1) ∘ fun e : Nat × K => ((i, e.1), e.2)) = (fun j => (i, j)) ∘ Prod.fst := rfl
      rw [e, ← List.map_map]
      exact (h.distinct _ (List.getElem_mem hi)).map fun a b hab => (Prod.mk.injEq ..  ▸ hab).2
    · rw [List.pairwise_iff_getElem]
      intro a b ha hb hab
      simp only [List.getElem_map, List.getElem_mapIdx]
      intro x hx hy
      simp only [List.map_map, List.mem_map, Function.comp_apply] at hx hy
      obtain ⟨e, -, rfl⟩ := hx
      obtain ⟨e', -, h'⟩ := hy
      simp only [Prod.mk.injEq] at h'
      omega

theorem KnnGeo.count_filter {n : Nat} (l : List Nat) (hl : l.Nodup) (q : Nat → Bool) (h : ∀ j ∈ l, j < n ∧ q j = true) : l.length ≤ (List.range n).countP q := by
  rw [List.countP_eq_length_filter]
  exact (List.subperm_of_subset hl fun j hj => List.mem_filter.2 ⟨List.mem_range.2 (h j hj).1, (h j hj).2⟩).length_le

theorem KnnGeo.filter_count {n : Nat} (l : List Nat) (q : Nat → Bool) (h : ∀ j, j < n → q j = true → j ∈ l) : (List.range n).countP q ≤ l.length := by
  rw [List.countP_eq_length_filter]
  refine (List.subperm_of_subset (List.nodup_range.filter _) fun j hj => ?_).length_le
  obtain ⟨h1, h2⟩ := List.mem_filter.1 hj
  exact h j (List.mem_range.1 h1) h2

/-- A point with few points as near is a neighbour. -/
theorem KnnGeo.edge_of_asNear {n k : Nat} {d w : Nat → Nat → K} {g : Neighbors.Graph K} (h : Spec.Neighbors.IsKnn n k d w g) (i j : Nat) (hi : i < n) (hj : j < n) (hij : j ≠ i)
    (hc : asNear n d i j < k) : DocEdge (asInput g) i j (w i j) := by
  have hr : i < g.rows.length := by rw [h.rows]; exact hi
  have hr' := List.getElem?_eq_getElem hr
  rw [KnnGeo.edge]
  refine ⟨_, hr', ?_⟩
  have hmem : j ∈ (g.rows[i]).map Prod.fst := by
    by_contra hn
    have hle : ((g.rows[i]).map Prod.fst).length ≤ asNear n d i j := by
      apply KnnGeo.count_filter _ (h.distinct _ (List.getElem_mem hr))
      intro l hl
      obtain ⟨e, he, rfl⟩ := List.mem_map.1 hl
      refine ⟨h.range _ (List.getElem_mem hr) e he, ?_⟩
      rw [decide_eq_true_eq]
      refine ⟨h.loops i _ hr' e he, ?_, h.nearest i _ hr' e he j hj hij hn⟩
      rintro rfl
      exact hn (List.mem_map_of_mem he)
    rw [List.length_map, h.degree _ (List.getElem_mem hr)] at hle
    omega
  obtain ⟨e, he, rfl⟩ := List.mem_map.1 hmem
  rw [← h.values i _ hr' e he]
  exact he

/-- A neighbour has few points nearer. -/
theorem KnnGeo.nearer_of_edge {n k : Nat} {d w : Nat → Nat → K} {g : Neighbors.Graph K} (h : Spec.Neighbors.IsKnn n k d w g) (i j : Nat) (v : K) (he : DocEdge (asInput g) i j v) :
    AmongNearest n k d i j ∧ v = w i j := by
  obtain ⟨r, hr, hm⟩ := (KnnGeo.edge g i j v).1 he
  have hrm := List.mem_of_getElem? hr
  have hi : i < n := by rw [← h.rows]; exact (List.getElem?_eq_some_iff.1 hr).1
  refine ⟨⟨hi, h.range r hrm _ hm, h.loops i r hr _ hm, ?_⟩, h.values i r hr _ hm⟩
  have hle : nearer n d i j ≤ ((r.map Prod.fst).erase j).length := by
    apply KnnGeo.filter_count
    intro l hl hq
    rw [decide_eq_true_eq] at hq
    have hlr : l ∈ r.map Prod.fst := by
      by_contra hn
      exact absurd (h.nearest i r hr _ hm l hl hq.1 hn) (not_le.2 hq.2)
    refine (List.mem_erase_of_ne ?_).2 hlr
    rintro rfl
    exact lt_irrefl _ hq.2
  have hjm : j ∈ r.map Prod.fst := List.mem_map.2 ⟨_, hm, rfl⟩
  rw [List.length_erase_of_mem hjm, List.length_map, h.degree r hrm] at hle
  have : 0 < k := by
    rw [← h.degree r hrm]
    exact List.length_pos_of_mem hm
  omega

theorem KnnGeo.asNear_eq {n : Nat} {d : Nat → Nat → K} (ht : NoTies n d) (i j : Nat) (hi : i < n) (hj : j < n) (hij : j ≠ i) : asNear n d i j = nearer n d i j := by
  unfold asNear nearer
  apply List.countP_congr
  intro l hl
  rw [List.mem_range] at hl
  simp only [decide_eq_true_eq]
  constructor
  · rintro ⟨h1, h2, h3⟩
    refine ⟨h1, lt_of_le_of_ne h3 fun e => h2 (ht i hi l hl j hj h1 hij e)⟩
  · rintro ⟨h1, h2⟩
    refine ⟨h1, ?_, h2.le⟩
    rintro rfl
    exact lt_irrefl _ h2

/-- Without ties the graph is determined. -/
theorem KnnGeo.edge_iff {n k : Nat} {d w : Nat → Nat → K} {g : Neighbors.Graph K} (h : Spec.Neighbors.IsKnn n k d w g) (ht : NoTies n d) (i j : Nat) (v : K) :
    DocEdge (asInput g) i j v ↔ AmongNearest n k d i j ∧ v = w i j := by
  constructor
  · exact KnnGeo.nearer_of_edge h i j v
  · rintro ⟨⟨hi, hj, hij, hk⟩, rfl⟩
    exact KnnGeo.edge_of_asNear h i j hi hj hij (by rw [KnnGeo.asNear_eq ht i j hi hj hij]; exact hk)

/-- Walks along edges which are at least as long as distances. -/
theorem KnnGeo.walk_ge {E : Nat → Nat → K → Prop} (d : Nat → Nat → K) (h0 : ∀ i, d i i = 0) (ht : ∀ i j l, d i l ≤ d i j + d j l) (hE : ∀ i j w, E i j w → d i j ≤ w) {i j : Nat} {l : K}
    (hw : Walk E i j l) : d i j ≤ l := by
  induction hw with
  | nil i => rw [h0]
  | cons i k j w l h1 _ ih =>
    have := hE i k w h1
    have := ht i k j
    linarith

theorem KnnGeo.vertices_eq {n k : Nat} {d w : Nat → Nat → K} {g : Neighbors.Graph K} (h : Spec.Neighbors.IsKnn n k d w g) : vertices (asInput g) = n := by
  change max g.n g.n = n
  rw [max_self, h.vertices]

/-- **C151, distances.** With `mode='distance'` and a metric: geodesic distances in the graph of the `k` nearest neighbours are at least the distances themselves, and equal to them for points with
fewer than `k` others as near (if the graph is undirected: seen from one of the two). Every point has finite distances to at least `k` others. -/
theorem C151_metric (query : Nat → List K → List Nat) (hq : Spec.Neighbors.Correct query) (sparse : Neighbors.Params K → Arr K → PyM (Neighbors.Graph K)) (engine : Engine K) (hE : Spec.Correct engine)
    (p : Neighbors.Params K) (d : List K → List K → K) (hp : p.metric = some d) (hmode : p.mode = .distance) (hzero : ∀ x, d x x = 0) (hnonneg : ∀ x y, 0 ≤ d x y) (hsymm : ∀ x y, d x y = d y x)
    (htri : ∀ x y z, d x z ≤ d x y + d y z) (P : List (List K)) (c : Nat) (hc : 1 ≤ c) (hP : ∀ x ∈ P, x.length = c) (k : Nat) (hk : p.nNeighbors = k) (hk0 : 0 < k) (hn : k < P.length)
    (gp : GeodesicParams) (hu : gp.unweighted = false) (δ : Nat → Nat → K) (hδ : ∀ i j, δ i j = d (P.getD i []) (P.getD j [])) :
    ∃ out, knnGeodesic query sparse engine p gp (Spec.Neighbors.ofRows P c) = .ok (P.length, out) ∧ ∀ i < P.length,
      (∀ j < P.length, (δ i j : WithTop K) ≤ out i j ∧ (j = i ∨ asNear P.length δ i j < k ∨ gp.directed = false ∧ asNear P.length δ j i < k → out i j = (δ i j : WithTop K)) ∧
        (gp.directed = false → out i j = out j i)) ∧
      k ≤ (List.range P.length).countP fun j => decide (j ≠ i ∧ out i j ≠ ⊤) := by
  have hfun : δ = fun i j => d (Spec.Neighbors.point P i) (Spec.Neighbors.point P j) := by
    funext i j
    exact hδ i j
  obtain ⟨g, hg, hknn⟩ := C109_cloud query hq sparse p d hp hzero hnonneg P c hc hP k hk hk0 hn
  rw [← hfun] at hknn
  have hw : (fun i j => if p.mode = .connectivity then 1 else d (Spec.Neighbors.point P i) (Spec.Neighbors.point P j)) = δ := by
    rw [hfun, hmode]
    rfl
  rw [hw] at hknn
  have hE0 : ∀ i j w, DocEdge (asInput g) i j w → w = δ i j := fun i j w h => (KnnGeo.nearer_of_edge hknn i j w h).2
  have hpos : ∀ i j, 0 ≤ δ i j := fun i j => by rw [hδ]; exact hnonneg _ _
  have hsym : ∀ i j, δ i j = δ j i := fun i j => by rw [hδ, hδ]; exact hsymm _ _
  obtain ⟨out, h1, h2⟩ := C142_well_defined engine hE gp (asInput g) (KnnGeo.wellFormed hknn) fun _ i j w h => by rw [hE0 i j w h]; exact hpos i j
  have hv := KnnGeo.vertices_eq hknn
  rw [hv] at h1 h2
  have hstep : ∀ i j w, Step (DocEdge (asInput g)) gp.directed gp.unweighted i j w → w = δ i j := by
    rintro i j w ⟨v, h, rfl⟩
    rw [hu]
    rcases h with h | ⟨-, h⟩
    · exact hE0 i j v h
    · rw [hsym]
      exact hE0 j i v h
  have hge : ∀ i j l, Walk (Step (DocEdge (asInput g)) gp.directed gp.unweighted) i j l → δ i j ≤ l := fun i j l h =>
    KnnGeo.walk_ge δ (fun i => by rw [hδ]; exact hzero _) (fun i j l => by rw [hδ, hδ, hδ]; exact htri _ _ _) (fun i j w h => (hstep i j w h).ge) h
  have hflip : gp.directed = false → ∀ i j l, Walk (Step (DocEdge (asInput g)) gp.directed gp.unweighted) i j l → Walk (Step (DocEdge (asInput g)) gp.directed gp.unweighted) j i l := by
    intro hdir i j l h
    refine walk_flipped ?_ h
    rintro a b w ⟨v, hv, e⟩
    refine ⟨v, ?_, e⟩
    rcases hv with hv | ⟨-, hv⟩
    · exact .inr ⟨hdir, hv⟩
    · exact .inl hv
  have hone : ∀ i j w, Step (DocEdge (asInput g)) gp.directed gp.unweighted i j w → Walk (Step (DocEdge (asInput g)) gp.directed gp.unweighted) i j w := by
    intro i j w h
    have := Walk.cons i j j w 0 h (.nil j)
    rwa [add_zero] at this
  refine ⟨out, by unfold knnGeodesic; rw [hg, ok_bind]; exact h1, fun i hi => ⟨fun j hj => ⟨?_, ?_, ?_⟩, ?_⟩⟩
  · cases hx : out i j with
    | top => exact le_top
    | coe x => exact WithTop.coe_le_coe.2 (hge i j x (((h2 i hi j hj).2 x).1 hx).1)
  · intro hcase
    rw [(h2 i hi j hj).2]
    refine ⟨?_, fun l hl => hge i j l hl⟩
    by_cases hij : j = i
    · subst hij
      have : δ j j = 0 := by rw [hδ]; exact hzero _
      rw [this]
      exact .nil j
    · apply hone
      rcases hcase with hcase | hcase | ⟨hdir, hcase⟩
      · exact absurd hcase hij
      · exact ⟨δ i j, .inl (KnnGeo.edge_of_asNear hknn i j hi hj hij hcase), by rw [hu]; rfl⟩
      · exact ⟨δ i j, .inr ⟨hdir, by rw [hsym]; exact KnnGeo.edge_of_asNear hknn j i hj hi (Ne.symm hij) hcase⟩, by rw [hu]; rfl⟩
  · intro hdir
    cases hx : out i j with
    | top =>
      symm
      rw [(h2 j hj i hi).1]
      rintro ⟨l, hl⟩
      exact ((h2 i hi j hj).1.1 hx) ⟨l, hflip hdir _ _ _ hl⟩
    | coe x =>
      symm
      obtain ⟨a, b⟩ := ((h2 i hi j hj).2 x).1 hx
      exact ((h2 j hj i hi).2 x).2 ⟨hflip hdir _ _ _ a, fun l hl => b l (hflip hdir _ _ _ hl)⟩
  · have hr : i < g.rows.length := by rw [hknn.rows]; exact hi
    rw [← hknn.degree _ (List.getElem_mem hr), ← List.length_map (f := Prod.fst)]
    apply KnnGeo.count_filter _ (hknn.distinct _ (List.getElem_mem hr))
    intro j hj
    obtain ⟨e, he, rfl⟩ := List.mem_map.1 hj
    have hlt := hknn.range _ (List.getElem_mem hr) e he
    refine ⟨hlt, ?_⟩
    rw [decide_eq_true_eq]
    refine ⟨hknn.loops i _ (List.getElem?_eq_getElem hr) e he, fun htop => ?_⟩
    refine (h2 i hi _ hlt).1.1 htop ⟨_, hone _ _ _ ⟨e.2, .inl ((KnnGeo.edge g i e.1 e.2).2 ⟨_, List.getElem?_eq_getElem hr, he⟩), rfl⟩⟩

/-- **C151, all other points.** With `n_neighbors` one less than the number of points, the geodesic distances are the distances. -/
theorem C151_complete (query : Nat → List K → List Nat) (hq : Spec.Neighbors.Correct query) (sparse : Neighbors.Params K → Arr K → PyM (Neighbors.Graph K)) (engine : Engine K) (hE : Spec.Correct engine)
    (p : Neighbors.Params K) (d : List K → List K → K) (hp : p.metric = some d) (hmode : p.mode = .distance) (hzero : ∀ x, d x x = 0) (hnonneg : ∀ x y, 0 ≤ d x y) (hsymm : ∀ x y, d x y = d y x)
    (htri : ∀ x y z, d x z ≤ d x y + d y z) (P : List (List K)) (c : Nat) (hc : 1 ≤ c) (hP : ∀ x ∈ P, x.length = c) (hk : p.nNeighbors = (P.length : Int) - 1) (hn : 2 ≤ P.length)
    (gp : GeodesicParams) (hu : gp.unweighted = false) :
    ∃ out, knnGeodesic query sparse engine p gp (Spec.Neighbors.ofRows P c) = .ok (P.length, out) ∧
      ∀ i < P.length, ∀ j < P.length, out i j = ((d (P.getD i []) (P.getD j []) : K) : WithTop K) := by
  obtain ⟨out, h1, h2⟩ := C151_metric query hq sparse engine hE p d hp hmode hzero hnonneg hsymm htri P c hc hP (P.length - 1) (by rw [hk]; omega) (by omega) (by omega) gp hu
    (fun i j => d (P.getD i []) (P.getD j [])) fun _ _ => rfl
  refine ⟨out, h1, fun i hi j hj => ?_⟩
  by_cases hij : j = i
  · exact ((h2 i hi).1 j hj).2.1 (.inl hij)
  · have hs : asNear P.length (fun i j => d (P.getD i []) (P.getD j [])) i j ≤ (((List.range P.length).erase i).erase j).length := by
      apply KnnGeo.filter_count
      intro l hl hq
      rw [decide_eq_true_eq] at hq
      exact (List.mem_erase_of_ne hq.2.1).2 ((List.mem_erase_of_ne hq.1).2 (List.mem_range.2 hl))
    rw [List.length_erase_of_mem ((List.mem_erase_of_ne hij).2 (List.mem_range.2 hj)), List.length_erase_of_mem (List.mem_range.2 hi), List.length_range] at hs
    exact ((h2 i hi).1 j hj).2.1 (.inr (.inl (by omega)))

/-- The graph of a cloud. -/
theorem KnnGeo.cloud (query : Nat → List K → List Nat) (hq : Spec.Neighbors.Correct query) (sparse : Neighbors.Params K → Arr K → PyM (Neighbors.Graph K)) (p : Neighbors.Params K) (d : List K → List K → K)
    (hp : p.metric = some d) (hzero : ∀ x, d x x = 0) (hnonneg : ∀ x y, 0 ≤ d x y) (P : List (List K)) (c : Nat) (hc : 1 ≤ c) (hP : ∀ x ∈ P, x.length = c) (k : Nat) (hk : p.nNeighbors = k) (hk0 : 0 < k)
    (hn : k < P.length) (δ : Nat → Nat → K) (hδ : ∀ i j, δ i j = d (P.getD i []) (P.getD j [])) :
    ∃ g, Neighbors.kneighborsGraph query sparse p (Spec.Neighbors.ofRows P c) = .ok g ∧ Spec.Neighbors.IsKnn P.length k δ (fun i j => if p.mode = .connectivity then 1 else δ i j) g := by
  have hfun : δ = fun i j => d (Spec.Neighbors.point P i) (Spec.Neighbors.point P j) := by
    funext i j
    exact hδ i j
  obtain ⟨g, hg, hknn⟩ := C109_cloud query hq sparse p d hp hzero hnonneg P c hc hP k hk hk0 hn
  exact ⟨g, hg, by rw [hfun]; exact hknn⟩

/-- **C151, more neighbours.** Without ties, more neighbours never enlarge a distance, whatever the mode and for weighted and unweighted graphs. -/
theorem C151_more_neighbours (query query' : Nat → List K → List Nat) (hq : Spec.Neighbors.Correct query) (hq' : Spec.Neighbors.Correct query') (sparse sparse' : Neighbors.Params K → Arr K → PyM (Neighbors.Graph K))
    (engine : Engine K) (hE : Spec.Correct engine) (p p' : Neighbors.Params K) (d : List K → List K → K) (hp : p.metric = some d) (hp' : p'.metric = some d) (hmode : p'.mode = p.mode) (hzero : ∀ x, d x x = 0)
    (hnonneg : ∀ x y, 0 ≤ d x y) (P : List (List K)) (c : Nat) (hc : 1 ≤ c) (hP : ∀ x ∈ P, x.length = c) (k k' : Nat) (hk : p.nNeighbors = k) (hk' : p'.nNeighbors = k') (hk0 : 0 < k) (hkk : k ≤ k')
    (hn : k' < P.length) (gp gp' : GeodesicParams) (hgp : gp'.directed = gp.directed ∧ gp'.unweighted = gp.unweighted) (ht : NoTies P.length fun i j => d (P.getD i []) (P.getD j [])) :
    ∃ out out', knnGeodesic query sparse engine p gp (Spec.Neighbors.ofRows P c) = .ok (P.length, out) ∧ knnGeodesic query' sparse' engine p' gp' (Spec.Neighbors.ofRows P c) = .ok (P.length, out') ∧
      ∀ i < P.length, ∀ j < P.length, out' i j ≤ out i j := by
  obtain ⟨g, hg, h⟩ := KnnGeo.cloud query hq sparse p d hp hzero hnonneg P c hc hP k hk hk0 (by omega) _ fun _ _ => rfl
  obtain ⟨g', hg', h'⟩ := KnnGeo.cloud query' hq' sparse' p' d hp' hzero hnonneg P c hc hP k' hk' (by omega) hn _ fun _ _ => rfl
  rw [hmode] at h'
  have hpos : ∀ i j, (0 : K) ≤ if p.mode = .connectivity then 1 else d (P.getD i []) (P.getD j []) := by
    intro i j
    split
    · exact zero_le_one
    · exact hnonneg _ _
  have n1 : ∀ i j w, DocEdge (asInput g) i j w → 0 ≤ w := fun i j w he => by rw [(KnnGeo.nearer_of_edge h i j w he).2]; exact hpos i j
  have n2 : ∀ i j w, DocEdge (asInput g') i j w → 0 ≤ w := fun i j w he => by rw [(KnnGeo.nearer_of_edge h' i j w he).2]; exact hpos i j
  obtain ⟨out, out', h1, h2, h3⟩ := C142_monotone engine hE gp gp' hgp (asInput g) (asInput g') (KnnGeo.wellFormed h) (KnnGeo.wellFormed h')
    (by rw [KnnGeo.vertices_eq h, KnnGeo.vertices_eq h'])
    (fun i j w he => by
      obtain ⟨⟨a, b, c, e⟩, hw⟩ := KnnGeo.nearer_of_edge h i j w he
      exact ⟨w, (KnnGeo.edge_iff h' ht i j w).2 ⟨⟨a, b, c, lt_of_lt_of_le e hkk⟩, hw⟩, le_rfl⟩)
    (fun _ => n1) (fun _ => n2) (distance_exists _ _ _ _ (.inr n1)) (distance_exists _ _ _ _ (.inr n2))
  rw [KnnGeo.vertices_eq h] at h1 h3
  rw [KnnGeo.vertices_eq h'] at h2
  exact ⟨out, out', by unfold knnGeodesic; rw [hg, ok_bind]; exact h1, by unfold knnGeodesic; rw [hg', ok_bind]; exact h2, h3⟩

/-- **C151, other units.** Without ties, the result depends on the distances between the points only: whatever the searches, methods and surrounding spaces, multiplying all distances by a positive number
multiplies the geodesic distances by it, or leaves them as they are if distances are not used as weights. -/
theorem C151_similar (query query' : Nat → List K → List Nat) (hq : Spec.Neighbors.Correct query) (hq' : Spec.Neighbors.Correct query') (sparse sparse' : Neighbors.Params K → Arr K → PyM (Neighbors.Graph K))
    (engine : Engine K) (hE : Spec.Correct engine) (p p' : Neighbors.Params K) (d d' : List K → List K → K) (hp : p.metric = some d) (hp' : p'.metric = some d') (hmode : p'.mode = p.mode)
    (hzero : ∀ x, d x x = 0) (hnonneg : ∀ x y, 0 ≤ d x y) (hzero' : ∀ x, d' x x = 0) (hnonneg' : ∀ x y, 0 ≤ d' x y) (P P' : List (List K)) (hlen : P'.length = P.length) (c c' : Nat) (hc : 1 ≤ c)
    (hc' : 1 ≤ c') (hP : ∀ x ∈ P, x.length = c) (hP' : ∀ x ∈ P', x.length = c') (k : Nat) (hk : p.nNeighbors = k) (hk' : p'.nNeighbors = k) (hk0 : 0 < k) (hn : k < P.length)
    (gp gp' : GeodesicParams) (hgp : gp'.directed = gp.directed ∧ gp'.unweighted = gp.unweighted) (s : K) (hs : 0 < s)
    (hsim : ∀ i j, i < P.length → j < P.length → d' (P'.getD i []) (P'.getD j []) = s * d (P.getD i []) (P.getD j []))
    (ht : NoTies P.length fun i j => d (P.getD i []) (P.getD j [])) :
    ∃ out out', knnGeodesic query sparse engine p gp (Spec.Neighbors.ofRows P c) = .ok (P.length, out) ∧ knnGeodesic query' sparse' engine p' gp' (Spec.Neighbors.ofRows P' c') = .ok (P.length, out') ∧
      ∀ i < P.length, ∀ j < P.length, out' i j = (out i j).map fun x => (if gp.unweighted = true ∨ p.mode = .connectivity then 1 else s) * x := by
  obtain ⟨g, hg, h⟩ := KnnGeo.cloud query hq sparse p d hp hzero hnonneg P c hc hP k hk hk0 hn _ fun _ _ => rfl
  obtain ⟨g', hg', h'⟩ := KnnGeo.cloud query' hq' sparse' p' d' hp' hzero' hnonneg' P' c' hc' hP' k hk' hk0 (by omega) _ fun _ _ => rfl
  rw [hmode, hlen] at h'
  have ht' : NoTies P.length fun i j => d' (P'.getD i []) (P'.getD j []) := by
    intro i hi j hj l hl h1 h2 e
    dsimp only at e
    rw [hsim i j hi hj, hsim i l hi hl] at e
    exact ht i hi j hj l hl h1 h2 (mul_left_cancel₀ hs.ne' e)
  have hnear : ∀ i j, AmongNearest P.length k (fun i j => d' (P'.getD i []) (P'.getD j [])) i j ↔ AmongNearest P.length k (fun i j => d (P.getD i []) (P.getD j [])) i j := by
    intro i j
    unfold AmongNearest
    refine and_congr_right fun hi => and_congr_right fun hj => and_congr_right fun _ => ?_
    have e : nearer P.length (fun i j => d' (P'.getD i []) (P'.getD j [])) i j = nearer P.length (fun i j => d (P.getD i []) (P.getD j [])) i j := by
      unfold nearer
      apply List.countP_congr
      intro l hl
      rw [List.mem_range] at hl
      simp only [decide_eq_true_eq]
      rw [hsim i l hi hl, hsim i j hi hj, mul_lt_mul_iff_right₀ hs]
    rw [e]
  have hpos : ∀ i j, (0 : K) ≤ if p.mode = .connectivity then 1 else d (P.getD i []) (P.getD j []) := by
    intro i j
    split
    · exact zero_le_one
    · exact hnonneg _ _
  have n1 : ∀ i j w, DocEdge (asInput g) i j w → 0 ≤ w := fun i j w he => by rw [(KnnGeo.nearer_of_edge h i j w he).2]; exact hpos i j
  set t : K := if p.mode = .connectivity then 1 else s with htdef
  have htpos : 0 < t := by
    rw [htdef]
    split
    · exact zero_lt_one
    · exact hs
  obtain ⟨out, out', h1, h2, h3⟩ := C142_units engine hE gp gp' hgp (asInput g) (asInput g') (KnnGeo.wellFormed h) (KnnGeo.wellFormed h') t htpos
    (by rw [KnnGeo.vertices_eq h, KnnGeo.vertices_eq h'])
    (fun i j w => by
      rw [KnnGeo.edge_iff h' ht', hnear]
      constructor
      · rintro ⟨ha, rfl⟩
        refine ⟨_, (KnnGeo.edge_iff h ht i j _).2 ⟨ha, rfl⟩, ?_⟩
        rw [htdef]
        split
        · rw [mul_one]
        · exact hsim i j ha.1 ha.2.1
      · rintro ⟨v, hv, rfl⟩
        obtain ⟨ha, rfl⟩ := (KnnGeo.edge_iff h ht i j v).1 hv
        refine ⟨ha, ?_⟩
        rw [htdef]
        split
        · rw [mul_one]
        · exact (hsim i j ha.1 ha.2.1).symm)
    (fun _ => n1) (distance_exists _ _ _ _ (.inr n1))
  rw [KnnGeo.vertices_eq h] at h1 h2 h3
  refine ⟨out, out', by unfold knnGeodesic; rw [hg, ok_bind]; exact h1, by unfold knnGeodesic; rw [hg', ok_bind]; exact h2, fun i hi j hj => ?_⟩
  rw [h3 i hi j hj]
  congr 1
  funext x
  congr 1
  rw [htdef]
  by_cases hu : gp.unweighted = true
  · simp [hu]
  · by_cases hm : p.mode = .connectivity <;> simp [hu, hm]

theorem KnnGeo.walk_nat {E : Nat → Nat → K → Prop} (hE : ∀ i j w, E i j w → w = 1) {i j : Nat} {l : K} (hw : Walk E i j l) :
    ∃ m : Nat, l = m ∧ (m = 0 → i = j) ∧ (m = 1 → E i j 1) := by
  induction hw with
  | nil i => exact ⟨0, by simp, fun _ => rfl, fun h => by omega⟩
  | cons i k j w l h1 _ ih =>
    obtain ⟨m, hm, h0, -⟩ := ih
    have e := hE i k w h1
    subst e
    refine ⟨m + 1, by rw [hm]; push_cast; ring, fun h => by omega, fun h => ?_⟩
    rw [← h0 (by omega)]
    exact h1

/-- **C151, numbers of steps.** With `mode='connectivity'`, or `unweighted=True`, the distances are numbers of steps (or infinite): 0 only for the point itself, and, without ties, 1 exactly for the `k` nearest
points, and for the points it is one of the `k` nearest of if the graph is undirected. -/
theorem C151_steps (query : Nat → List K → List Nat) (hq : Spec.Neighbors.Correct query) (sparse : Neighbors.Params K → Arr K → PyM (Neighbors.Graph K)) (engine : Engine K) (hE : Spec.Correct engine)
    (p : Neighbors.Params K) (d : List K → List K → K) (hp : p.metric = some d) (hzero : ∀ x, d x x = 0) (hnonneg : ∀ x y, 0 ≤ d x y) (P : List (List K)) (c : Nat) (hc : 1 ≤ c)
    (hP : ∀ x ∈ P, x.length = c) (k : Nat) (hk : p.nNeighbors = k) (hk0 : 0 < k) (hn : k < P.length) (gp : GeodesicParams) (hu : gp.unweighted = true ∨ p.mode = .connectivity) :
    ∃ out, knnGeodesic query sparse engine p gp (Spec.Neighbors.ofRows P c) = .ok (P.length, out) ∧ ∀ i < P.length, ∀ j < P.length,
      (out i j = ⊤ ∨ ∃ m : Nat, out i j = ((m : K) : WithTop K)) ∧ (out i j = ((0 : K) : WithTop K) ↔ i = j) ∧
      ((NoTies P.length fun i j => d (P.getD i []) (P.getD j [])) → (out i j = ((1 : K) : WithTop K) ↔
        AmongNearest P.length k (fun i j => d (P.getD i []) (P.getD j [])) i j ∨ gp.directed = false ∧ AmongNearest P.length k (fun i j => d (P.getD i []) (P.getD j [])) j i)) := by
  obtain ⟨g, hg, h⟩ := KnnGeo.cloud query hq sparse p d hp hzero hnonneg P c hc hP k hk hk0 hn _ fun _ _ => rfl
  have hpos : ∀ i j, (0 : K) ≤ if p.mode = .connectivity then 1 else d (P.getD i []) (P.getD j []) := by
    intro i j
    split
    · exact zero_le_one
    · exact hnonneg _ _
  have n1 : ∀ i j w, DocEdge (asInput g) i j w → 0 ≤ w := fun i j w he => by rw [(KnnGeo.nearer_of_edge h i j w he).2]; exact hpos i j
  obtain ⟨out, h1, h2⟩ := C142_well_defined engine hE gp (asInput g) (KnnGeo.wellFormed h) fun _ => n1
  rw [KnnGeo.vertices_eq h] at h1 h2
  have hstep : ∀ i j w, Step (DocEdge (asInput g)) gp.directed gp.unweighted i j w → w = 1 := by
    rintro i j w ⟨v, hv, rfl⟩
    rcases hu with hu | hu
    · rw [hu]; rfl
    · split
      · rfl
      · rcases hv with hv | ⟨-, hv⟩
        · have := (KnnGeo.nearer_of_edge h _ _ _ hv).2
          rwa [if_pos hu] at this
        · have := (KnnGeo.nearer_of_edge h _ _ _ hv).2
          rwa [if_pos hu] at this
  refine ⟨out, by unfold knnGeodesic; rw [hg, ok_bind]; exact h1, fun i hi j hj => ⟨?_, ?_, ?_⟩⟩
  · cases hx : out i j with
    | top => exact .inl rfl
    | coe x =>
      obtain ⟨m, hm, -⟩ := KnnGeo.walk_nat hstep (((h2 i hi j hj).2 x).1 hx).1
      exact .inr ⟨m, by rw [hm]⟩
  · rw [(h2 i hi j hj).2]
    constructor
    · rintro ⟨hw, -⟩
      obtain ⟨m, hm, h0, -⟩ := KnnGeo.walk_nat hstep hw
      exact h0 (by exact_mod_cast hm.symm)
    · rintro rfl
      refine ⟨.nil i, fun l hl => ?_⟩
      obtain ⟨m, rfl, -⟩ := KnnGeo.walk_nat hstep hl
      exact Nat.cast_nonneg m
  · intro ht
    rw [(h2 i hi j hj).2]
    have hedge : Step (DocEdge (asInput g)) gp.directed gp.unweighted i j 1 ↔ AmongNearest P.length k (fun i j => d (P.getD i []) (P.getD j [])) i j ∨
        gp.directed = false ∧ AmongNearest P.length k (fun i j => d (P.getD i []) (P.getD j [])) j i := by
      constructor
      · rintro ⟨v, hv, -⟩
        exact hv.imp (fun hv => (KnnGeo.nearer_of_edge h _ _ _ hv).1) fun hv => ⟨hv.1, (KnnGeo.nearer_of_edge h _ _ _ hv.2).1⟩
      · intro ha
        have hex : ∃ v, DocEdge (asInput g) i j v ∨ gp.directed = false ∧ DocEdge (asInput g) j i v := by
          rcases ha with ha | ⟨hdir, ha⟩
          · exact ⟨_, .inl ((KnnGeo.edge_iff h ht i j _).2 ⟨ha, rfl⟩)⟩
          · exact ⟨_, .inr ⟨hdir, (KnnGeo.edge_iff h ht j i _).2 ⟨ha, rfl⟩⟩⟩
        obtain ⟨v, hv⟩ := hex
        refine ⟨v, hv, ?_⟩
        exact (hstep i j _ ⟨v, hv, rfl⟩).symm
    rw [← hedge]
    constructor
    · rintro ⟨hw, -⟩
      obtain ⟨m, hm, -, h1⟩ := KnnGeo.walk_nat hstep hw
      exact h1 (by exact_mod_cast hm.symm)
    · intro hs
      refine ⟨?_, fun l hl => ?_⟩
      · have := Walk.cons i j j 1 0 hs (.nil j)
        rwa [add_zero] at this
      · obtain ⟨m, rfl, h0, -⟩ := KnnGeo.walk_nat hstep hl
        have hij : i ≠ j := by
          rcases hedge.1 hs with ha | ⟨-, ha⟩
          · exact fun e => ha.2.2.1 e.symm
          · exact fun e => ha.2.2.1 e
        have : m ≠ 0 := fun e => hij (h0 e)
        have : 1 ≤ m := by omega
        exact_mod_cast this

end

/-- Points 0, 1 and 3 of a line. -/
private abbrev line : List (List ℚ) := [[0], [1], [3]]

/-- Their distance. -/
private abbrev lineDist (x y : List ℚ) : ℚ := |x.headD 0 - y.headD 0|

/-- No ties among the points of the examples. -/
private theorem line_noTies : NoTies line.length fun i j => lineDist (line.getD i []) (line.getD j []) := by
  have : ∀ i < 3, ∀ j < 3, ∀ l < 3, j = i ∨ l = i ∨ lineDist (line.getD i []) (line.getD j []) ≠ lineDist (line.getD i []) (line.getD l []) ∨ j = l := by decide +kernel
  intro i hi j hj l hl h1 h2 h3
  rcases this i hi j hj l hl with h | h | h | h
  · exact absurd h h1
  · exact absurd h h2
  · exact absurd h3 h
  · exact h

/-- Non-vacuity of `C151_metric`: points 0, 1 and 3 of a line, with one neighbour each. From 3 to 0 the way leads through 1 (1 is as near as the nearest neighbour of 3, and 0 of 1), and 1 is exactly 2 away. -/
example (sparse : Neighbors.Params ℚ → Arr ℚ → PyM (Neighbors.Graph ℚ)) (engine : Engine ℚ) (hE : Spec.Correct engine) :
    ∃ out, knnGeodesic Neighbors.sortQuery sparse engine ⟨1, .distance, some lineDist⟩ ⟨false, false, .auto⟩ (Spec.Neighbors.ofRows line 1) = .ok (3, out) ∧ out 2 1 = ((2 : ℚ) : WithTop ℚ) ∧
      out 1 2 = ((2 : ℚ) : WithTop ℚ) ∧ ((3 : ℚ) : WithTop ℚ) ≤ out 2 0 := by
  obtain ⟨out, h1, h2⟩ := C151_metric Neighbors.sortQuery sortQuery_correct sparse engine hE ⟨1, .distance, some lineDist⟩ lineDist rfl rfl (by intro x; simp [lineDist])
    (fun x y => abs_nonneg _) (fun x y => abs_sub_comm _ _) (fun x y z => abs_sub_le _ _ _) line 1 (by omega) (by intro x hx; simp at hx; rcases hx with rfl | rfl | rfl <;> rfl) 1 rfl (by omega) (by decide)
    ⟨false, false, .auto⟩ rfl _ fun _ _ => rfl
  have e : out 2 1 = ((2 : ℚ) : WithTop ℚ) := by
    rw [((h2 2 (by decide)).1 1 (by decide)).2.1 (.inr (.inl (by decide +kernel)))]
    exact congrArg _ (by decide +kernel)
  refine ⟨out, h1, e, ?_, ?_⟩
  · rw [← ((h2 2 (by decide)).1 1 (by decide)).2.2 rfl]
    exact e
  · refine le_trans (le_of_eq (congrArg _ ?_)) ((h2 2 (by decide)).1 0 (by decide)).1
    decide +kernel

/-- Non-vacuity of `C151_complete`. -/
example (sparse : Neighbors.Params ℚ → Arr ℚ → PyM (Neighbors.Graph ℚ)) (engine : Engine ℚ) (hE : Spec.Correct engine) :
    ∃ out, knnGeodesic Neighbors.sortQuery sparse engine ⟨2, .distance, some lineDist⟩ ⟨true, false, .auto⟩ (Spec.Neighbors.ofRows line 1) = .ok (3, out) ∧ out 2 0 = ((3 : ℚ) : WithTop ℚ) := by
  obtain ⟨out, h1, h2⟩ := C151_complete Neighbors.sortQuery sortQuery_correct sparse engine hE ⟨2, .distance, some lineDist⟩ lineDist rfl rfl (by intro x; simp [lineDist])
    (fun x y => abs_nonneg _) (fun x y => abs_sub_comm _ _) (fun x y z => abs_sub_le _ _ _) line 1 (by omega) (by intro x hx; simp at hx; rcases hx with rfl | rfl | rfl <;> rfl) rfl (by decide)
    ⟨true, false, .auto⟩ rfl
  refine ⟨out, h1, ?_⟩
  rw [h2 2 (by decide) 0 (by decide)]
  exact congrArg _ (by decide +kernel)

/-- Non-vacuity of `C151_more_neighbours`. -/
example (sparse : Neighbors.Params ℚ → Arr ℚ → PyM (Neighbors.Graph ℚ)) (engine : Engine ℚ) (hE : Spec.Correct engine) :
    ∃ out out', knnGeodesic Neighbors.sortQuery sparse engine ⟨1, .distance, some lineDist⟩ ⟨true, false, .auto⟩ (Spec.Neighbors.ofRows line 1) = .ok (3, out) ∧
      knnGeodesic Neighbors.sortQuery sparse engine ⟨2, .distance, some lineDist⟩ ⟨true, false, .auto⟩ (Spec.Neighbors.ofRows line 1) = .ok (3, out') ∧ out' 0 2 ≤ out 0 2 := by
  obtain ⟨out, out', h1, h2, h3⟩ := C151_more_neighbours Neighbors.sortQuery Neighbors.sortQuery sortQuery_correct sortQuery_correct sparse sparse engine hE ⟨1, .distance, some lineDist⟩
    ⟨2, .distance, some lineDist⟩ lineDist rfl rfl rfl (by intro x; simp [lineDist]) (fun x y => abs_nonneg _) line 1 (by omega)
    (by intro x hx; simp at hx; rcases hx with rfl | rfl | rfl <;> rfl) 1 2 rfl rfl (by omega) (by omega) (by decide) ⟨true, false, .auto⟩ ⟨true, false, .auto⟩ ⟨rfl, rfl⟩ line_noTies
  exact ⟨out, out', h1, h2, h3 0 (by decide) 2 (by decide)⟩

/-- Non-vacuity of `C151_similar`: the points 0, 1 and 3, and 5, 3 and -1 in the plane: distances doubled. -/
example (sparse : Neighbors.Params ℚ → Arr ℚ → PyM (Neighbors.Graph ℚ)) (engine : Engine ℚ) (hE : Spec.Correct engine) :
    ∃ out out', knnGeodesic Neighbors.sortQuery sparse engine ⟨1, .distance, some lineDist⟩ ⟨true, false, .auto⟩ (Spec.Neighbors.ofRows line 1) = .ok (3, out) ∧
      knnGeodesic Neighbors.sortQuery sparse engine ⟨1, .distance, some lineDist⟩ ⟨true, false, .auto⟩ (Spec.Neighbors.ofRows [[5, 7], [3, 7], [-1, 7]] 2) = .ok (3, out') ∧
      out' 2 0 = (out 2 0).map fun x => 2 * x := by
  obtain ⟨out, out', h1, h2, h3⟩ := C151_similar Neighbors.sortQuery Neighbors.sortQuery sortQuery_correct sortQuery_correct sparse sparse engine hE ⟨1, .distance, some lineDist⟩
    ⟨1, .distance, some lineDist⟩ lineDist lineDist rfl rfl rfl (by intro x; simp [lineDist]) (fun x y => abs_nonneg _) (by intro x; simp [lineDist]) (fun x y => abs_nonneg _) line [[5, 7], [3, 7], [-1, 7]] rfl 1 2
    (by omega) (by omega) (by intro x hx; simp at hx; rcases hx with rfl | rfl | rfl <;> rfl) (by intro x hx; simp at hx; rcases hx with rfl | rfl | rfl <;> rfl) 1 rfl rfl (by omega) (by decide)
    ⟨true, false, .auto⟩ ⟨true, false, .auto⟩ ⟨rfl, rfl⟩ 2 (by norm_num)
    (by
      have : ∀ i < 3, ∀ j < 3, lineDist (([[5, 7], [3, 7], [-1, 7]] : List (List ℚ)).getD i []) (([[5, 7], [3, 7], [-1, 7]] : List (List ℚ)).getD j []) = 2 * lineDist (line.getD i []) (line.getD j []) := by
        decide +kernel
      exact fun i j hi hj => this i hi j hj) line_noTies
  exact ⟨out, out', h1, h2, h3 2 (by decide) 0 (by decide)⟩

/-- Non-vacuity of `C151_steps`: 0 is not the nearest neighbour of 3, 1 is. -/
example (sparse : Neighbors.Params ℚ → Arr ℚ → PyM (Neighbors.Graph ℚ)) (engine : Engine ℚ) (hE : Spec.Correct engine) :
    ∃ out, knnGeodesic Neighbors.sortQuery sparse engine ⟨1, .connectivity, some lineDist⟩ ⟨false, false, .auto⟩ (Spec.Neighbors.ofRows line 1) = .ok (3, out) ∧ out 2 1 = ((1 : ℚ) : WithTop ℚ) ∧
      out 2 0 ≠ ((1 : ℚ) : WithTop ℚ) ∧ out 2 0 ≠ ((0 : ℚ) : WithTop ℚ) := by
  obtain ⟨out, h1, h2⟩ := C151_steps Neighbors.sortQuery sortQuery_correct sparse engine hE ⟨1, .connectivity, some lineDist⟩ lineDist rfl (by intro x; simp [lineDist])
    (fun x y => abs_nonneg _) line 1 (by omega) (by intro x hx; simp at hx; rcases hx with rfl | rfl | rfl <;> rfl) 1 rfl (by omega) (by decide) ⟨false, false, .auto⟩ (.inr rfl)
  refine ⟨out, h1, ((h2 2 (by decide) 1 (by decide)).2.2 line_noTies).2 (.inl ?_), fun h => ?_, fun h => ?_⟩
  · unfold AmongNearest
    decide +kernel
  · have := ((h2 2 (by decide) 0 (by decide)).2.2 line_noTies).1 h
    revert this
    unfold AmongNearest
    decide +kernel
  · exact absurd ((h2 2 (by decide) 0 (by decide)).2.1.1 h) (by decide)

/-- A correct engine exists. -/
example : ∃ engine : Engine ℚ, Spec.Correct engine := correct_engine_exists

end Gtda.Props
