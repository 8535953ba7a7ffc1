import Verif.Spec.Neighbors
import Verif.Props.InputChecks
import Verif.Props.MapperCluster
import Verif.Lemmas.List
import Mathlib.Data.Rat.Defs

set_option autoImplicit false
set_option linter.unusedSectionVars false

/-!
# C109: graphs of nearest neighbours
-/

namespace Gtda.Props

open Py Gtda.Checks Gtda.Neighbors Gtda.Spec.Checks Gtda.Spec.Neighbors

section

variable {K : Type} [Field K] [LinearOrder K]

theorem chunks_flatten {α : Type} (L : List (List α)) (c : Nat) (h : ∀ l ∈ L, l.length = c) : chunks c L.length L.flatten = L := by
  induction L with
  | nil => rfl
  | cons a t ih =>
      have ha := h a (by simp)
      rw [List.length_cons, List.flatten_cons]
      unfold chunks
      rw [← ha, List.take_left, List.drop_left, ha, ih (fun l hl => h l (by simp [hl]))]

theorem map_value (l : List K) : (l.map Num.fin).map value = l := by
  rw [List.map_map]
  exact (List.map_congr_left fun _ _ => rfl).trans (List.map_id _)

/-- Sorting is a correct search. -/
theorem sortQuery_correct : Correct (sortQuery (K := K)) := by
  intro m r hm
  unfold sortQuery
  set s := (List.range r.length).insertionSort (fun i j => r.getD i 0 ≤ r.getD j 0) with hs
  have hperm : s.Perm (List.range r.length) := List.perm_insertionSort _ _
  have hlen : s.length = r.length := by rw [hperm.length_eq, List.length_range]
  have hsort : s.Pairwise (fun i j => r.getD i 0 ≤ r.getD j 0) := by
    haveI : Std.Total (fun i j : Nat => r.getD i 0 ≤ r.getD j 0) := ⟨fun a b => le_total _ _⟩
    haveI : IsTrans Nat (fun i j : Nat => r.getD i 0 ≤ r.getD j 0) := ⟨fun a b c h1 h2 => le_trans h1 h2⟩
    exact List.pairwise_insertionSort _ _
  have hnd : s.Nodup := hperm.nodup_iff.2 List.nodup_range
  refine ⟨by rw [List.length_take, hlen]; omega, hnd.sublist (List.take_sublist _ _), ?_, hsort.sublist (List.take_sublist _ _), ?_⟩
  · intro j hj
    have := hperm.mem_iff.1 (List.mem_of_mem_take hj)
    exact List.mem_range.1 this
  · intro i hi j hj hj'
    have hjs : j ∈ s := hperm.mem_iff.2 (List.mem_range.2 hj)
    rw [← List.take_append_drop m s] at hsort hjs
    rcases List.mem_append.1 hjs with h | h
    · exact absurd h hj'
    · exact (List.pairwise_append.1 hsort).2.2 i hi j h

/-- Leaving out the point itself, or the first one, leaves `k` nearest other points. -/
theorem neighbors_spec (query : Nat → List K → List Nat) (hq : Correct query) (k i : Nat) (r : List K) (hk : k + 1 ≤ r.length) (hi : i < r.length)
    (hmin : ∀ j < r.length, r.getD i 0 ≤ r.getD j 0) :
    (neighbors query k i r).length = k ∧ (neighbors query k i r).Nodup ∧ (∀ j ∈ neighbors query k i r, j < r.length ∧ j ≠ i) ∧
      ∀ a ∈ neighbors query k i r, ∀ j < r.length, j ≠ i → j ∉ neighbors query k i r → r.getD a 0 ≤ r.getD j 0 := by
  obtain ⟨q1, q2, q3, q4, q5⟩ := hq (k + 1) r hk
  unfold neighbors
  generalize query (k + 1) r = ind at *
  dsimp only
  split
  · rename_i hall
    have hne : ∀ j ∈ ind, j ≠ i := fun j hj => by simpa using List.all_eq_true.1 hall j hj
    have hni : i ∉ ind := fun h => hne i h rfl
    refine ⟨by rw [List.length_tail, q1]; rfl, q2.sublist (List.tail_sublist _), ?_, ?_⟩
    · intro j hj
      exact ⟨q3 j (List.mem_of_mem_tail hj), hne j (List.mem_of_mem_tail hj)⟩
    · intro a ha j hj _ _
      exact le_trans (q5 a (List.mem_of_mem_tail ha) i hi hni) (hmin j hj)
  · rename_i hall
    have hin : i ∈ ind := by
      by_contra hni
      exact hall (List.all_eq_true.2 fun j hj => by
        have : j ≠ i := fun h => hni (h ▸ hj)
        simpa using this)
    refine ⟨?_, q2.filter _, ?_, ?_⟩
    · have h1 : (ind.filter fun j => decide (j ≠ i)) = ind.erase i := by
        rw [q2.erase_eq_filter]
        exact List.filter_congr fun x _ => by by_cases h : x = i <;> simp [h]
      rw [h1, List.length_erase_of_mem hin, q1]
      rfl
    · intro j hj
      rw [List.mem_filter] at hj
      exact ⟨q3 j hj.1, by simpa using hj.2⟩
    · intro a ha j hj hji hjn
      rw [List.mem_filter] at ha
      refine q5 a ha.1 j hj fun h => hjn ?_
      rw [List.mem_filter]
      exact ⟨h, by simpa using hji⟩

/-- The graph of a matrix of distances. -/
theorem knn_rows (query : Nat → List K → List Nat) (hq : Correct query) (k : Nat) (mode : Mode) (D : List (List K)) (n : Nat) (hn : D.length = n)
    (hrow : ∀ r ∈ D, r.length = n) (hk : k + 1 ≤ n) (hmin : ∀ i < n, ∀ j < n, entry D i i ≤ entry D i j) :
    IsKnn n k (entry D) (fun i j => match mode with | .connectivity => 1 | .distance => entry D i j)
      ⟨n, D.mapIdx fun i r => (neighbors query k i r).map fun j => (j, weight mode r j)⟩ := by
  have key : ∀ i r, (D.mapIdx fun i r => (neighbors query k i r).map fun j => (j, weight mode r j))[i]? = some r →
      i < n ∧ (D.getD i []).length = n ∧ r = (neighbors query k i (D.getD i [])).map fun j => (j, weight mode (D.getD i []) j) := by
    intro i r h
    rw [List.getElem?_mapIdx] at h
    cases hd : D[i]? with
    | none => rw [hd] at h; cases h
    | some r0 =>
        rw [hd] at h
        have hi : i < D.length := by
          by_contra hc
          rw [List.getElem?_eq_none (by omega)] at hd
          cases hd
        have hg : D.getD i [] = r0 := by rw [List.getD_eq_getElem?_getD, hd]; rfl
        rw [hg]
        refine ⟨by omega, hrow r0 (List.mem_of_getElem? hd), ?_⟩
        simpa using h.symm
  have spec : ∀ i, i < n → (D.getD i []).length = n → _ := fun i hi hl =>
    neighbors_spec query hq k i (D.getD i []) (by omega) (by omega) (fun j hj => hmin i hi j (by omega))
  have mem : ∀ r ∈ (D.mapIdx fun i r => (neighbors query k i r).map fun j => (j, weight mode r j)), ∃ i, i < n ∧ (D.getD i []).length = n ∧
      r = (neighbors query k i (D.getD i [])).map fun j => (j, weight mode (D.getD i []) j) := by
    intro r hr
    obtain ⟨i, hi⟩ := List.mem_iff_getElem?.1 hr
    exact ⟨i, key i r hi⟩
  have fsts : ∀ i, ((neighbors query k i (D.getD i [])).map fun j => (j, weight mode (D.getD i []) j)).map Prod.fst = neighbors query k i (D.getD i []) := by
    intro i
    rw [List.map_map]
    exact (List.map_congr_left fun _ _ => rfl).trans (List.map_id _)
  refine ⟨rfl, ?_, ?_, ?_, ?_, ?_, ?_, ?_⟩
  · simp [hn]
  · intro r hr
    obtain ⟨i, hi, hl, rfl⟩ := mem r hr
    rw [List.length_map]
    exact (spec i hi hl).1
  · intro r hr
    obtain ⟨i, hi, hl, rfl⟩ := mem r hr
    rw [fsts]
    exact (spec i hi hl).2.1
  · intro r hr e he
    obtain ⟨i, hi, hl, rfl⟩ := mem r hr
    have := List.mem_map_of_mem (f := Prod.fst) he
    rw [fsts] at this
    have := ((spec i hi hl).2.2.1 _ this).1
    omega
  · intro i r hr e he
    obtain ⟨hi, hl, rfl⟩ := key i r hr
    have := List.mem_map_of_mem (f := Prod.fst) he
    rw [fsts] at this
    exact ((spec i hi hl).2.2.1 _ this).2
  · intro i r hr e he
    obtain ⟨hi, hl, rfl⟩ := key i r hr
    obtain ⟨j, _, rfl⟩ := List.mem_map.1 he
    cases mode <;> rfl
  · intro i r hr e he j hj hji hjn
    obtain ⟨hi, hl, rfl⟩ := key i r hr
    have := List.mem_map_of_mem (f := Prod.fst) he
    rw [fsts] at this hjn
    exact (spec i hi hl).2.2.2 _ this j (by omega) hji hjn

theorem ofRows_finite (P : List (List K)) (c : Nat) : (ofRows P c).data.all Num.isFinite = true := by
  rw [List.all_eq_true]
  intro x hx
  obtain ⟨y, _, rfl⟩ := List.mem_map.1 hx
  rfl

theorem ofRows_chunks (P : List (List K)) (c : Nat) (h : ∀ x ∈ P, x.length = c) : chunks c P.length ((ofRows P c).data.map value) = P := by
  change chunks c P.length ((P.flatten.map Num.fin).map value) = P
  rw [map_value]
  exact chunks_flatten P c h

theorem denseGraph_ok (query : Nat → List K → List Nat) (p : Params K) (P : List (List K)) (c : Nat) (hc : 1 ≤ c) (hP : ∀ x ∈ P, x.length = c)
    (hsq : p.metric = none → P.length = c) (hk : 0 < p.nNeighbors) (hn : p.nNeighbors < P.length) :
    denseGraph query p (ofRows P c) =
      .ok ⟨P.length, (distances p.metric P).mapIdx fun i r => (neighbors query p.nNeighbors.toNat i r).map fun j => (j, weight p.mode r j)⟩ := by
  unfold denseGraph
  rw [ofRows_finite]
  have h3 : (p.metric.isNone && decide (P.length ≠ c)) = false := by
    cases hm : p.metric with
    | none => simp [hsq hm]
    | some d => rfl
  have hs : (ofRows P c).shape = [P.length, c] := rfl
  rw [hs]
  dsimp only
  rw [ofRows_chunks P c hP, h3, if_neg (by decide), if_neg (by omega), if_neg (by decide), if_neg (by omega), if_neg (by omega)]

/-- C109: the graph of a point cloud for a metric: each point has edges to exactly `n_neighbors` other points, none of the
remaining points being nearer; the values are 1 or the distances (zero for duplicates). -/
theorem C109_cloud (query : Nat → List K → List Nat) (hq : Correct query) (sparse : Params K → Arr K → PyM (Graph K)) (p : Params K)
    (d : List K → List K → K) (hp : p.metric = some d) (hzero : ∀ x, d x x = 0) (hnonneg : ∀ x y, 0 ≤ d x y)
    (P : List (List K)) (c : Nat) (hc : 1 ≤ c) (hP : ∀ x ∈ P, x.length = c) (k : Nat) (hk : p.nNeighbors = k) (hk0 : 0 < k) (hn : k < P.length) :
    ∃ g, kneighborsGraph query sparse p (ofRows P c) = .ok g ∧
      IsKnn P.length k (fun i j => d (point P i) (point P j))
        (fun i j => if p.mode = .connectivity then 1 else d (point P i) (point P j)) g := by
  have h := denseGraph_ok query p P c hc hP (by rw [hp]; exact fun h => by cases h) (by omega) (by omega)
  refine ⟨_, h, ?_⟩
  have hD : ∀ i < P.length, ∀ j < P.length, entry (distances p.metric P) i j = d (point P i) (point P j) := by
    intro i hi j hj
    rw [hp]
    unfold distances entry point
    simp [hi, hj]
  have hr := knn_rows query hq k p.mode (distances p.metric P) P.length (by rw [hp]; simp [distances])
    (by
      rw [hp]
      intro r hr
      obtain ⟨a, _, rfl⟩ := List.mem_map.1 hr
      simp) (by omega)
    (by
      intro i hi j hj
      rw [hD i hi i hi, hD i hi j hj, hzero]
      exact hnonneg _ _)
  have hk' : p.nNeighbors.toNat = k := by omega
  rw [hk']
  refine ⟨hr.vertices, hr.rows, hr.degree, hr.distinct, hr.range, hr.loops, ?_, ?_⟩
  · intro i r hi e he
    have hlt : i < P.length := by
      by_contra hc
      rw [List.getElem?_eq_none (by rw [hr.rows]; omega)] at hi
      cases hi
    rw [hr.values i r hi e he]
    cases hm : p.mode with
    | connectivity => rfl
    | distance => exact hD i hlt _ (hr.range r (List.mem_of_getElem? hi) e he)
  · intro i r hi e he j hj hji hjn
    have hlt : i < P.length := by
      by_contra hc
      rw [List.getElem?_eq_none (by rw [hr.rows]; omega)] at hi
      cases hi
    have := hr.nearest i r hi e he j hj hji hjn
    rwa [hD i hlt j hj, hD i hlt _ (hr.range r (List.mem_of_getElem? hi) e he)] at this

/-- C109, precomputed distances: the same if on each row no entry is less than that on the diagonal. -/
theorem C109_precomputed_partial (query : Nat → List K → List Nat) (hq : Correct query) (sparse : Params K → Arr K → PyM (Graph K)) (p : Params K)
    (hp : p.metric = none) (M : List (List K)) (hM : ∀ r ∈ M, r.length = M.length) (hdiag : ∀ i < M.length, ∀ j < M.length, entry M i i ≤ entry M i j)
    (k : Nat) (hk : p.nNeighbors = k) (hk0 : 0 < k) (hn : k < M.length) :
    ∃ g, kneighborsGraph query sparse p (ofRows M M.length) = .ok g ∧
      IsKnn M.length k (entry M) (fun i j => if p.mode = .connectivity then 1 else entry M i j) g := by
  have h := denseGraph_ok query p M M.length (by omega) hM (fun _ => rfl) (by omega) (by omega)
  refine ⟨_, h, ?_⟩
  have hk' : p.nNeighbors.toNat = k := by omega
  rw [hk', hp]
  have hr := knn_rows query hq k p.mode M M.length rfl hM (by omega) hdiag
  refine ⟨hr.vertices, hr.rows, hr.degree, hr.distinct, hr.range, hr.loops, ?_, hr.nearest⟩
  intro i r hi e he
  rw [hr.values i r hi e he]
  cases p.mode <;> rfl

theorem kg_dense (query : Nat → List K → List Nat) (sparse : Params K → Arr K → PyM (Graph K)) (p : Params K) (P : List (List K)) (c : Nat) :
    kneighborsGraph query sparse p (ofRows P c) = denseGraph query p (ofRows P c) := rfl

/-- C109: numbers of neighbours which are not positive, or not less than the number of points, are refused. -/
theorem C109_rejected (query : Nat → List K → List Nat) (sparse : Params K → Arr K → PyM (Graph K)) (p : Params K) (x : Arr K) (hx : x.sparse = false)
    (n c : Nat) (hs : x.shape = [n, c]) (hk : p.nNeighbors ≤ 0 ∨ (n : Int) ≤ p.nNeighbors) : kneighborsGraph query sparse p x = .error .valueError := by
  unfold kneighborsGraph
  rw [hx]
  change denseGraph query p x = _
  unfold denseGraph
  rw [hs]
  dsimp only
  split
  · rfl
  split
  · rfl
  split
  · rfl
  split
  · rfl
  rw [if_pos (by omega)]

theorem iterate_stacks (l : List (Arr K)) (rows cols : Nat) (a : Arr K) (ha : Stacks l rows cols a) (hl : ∀ x ∈ l, x.shape = [rows, cols] ∧ x.sparse = false)
    (hw : ∀ x ∈ l, WellShaped x) : iterate (.array a) = l := by
  obtain ⟨a1, a2, a3⟩ := ha
  unfold iterate
  dsimp only
  rw [a1]
  dsimp only
  rw [a2, a3]
  have h1 : (l.flatMap fun x => x.data) = (l.map Arr.data).flatten := by rw [List.flatMap_def]
  have h2 : l.length = (l.map Arr.data).length := by simp
  rw [h1, h2, chunks_flatten]
  · rw [List.map_map]
    refine (List.map_congr_left fun x hx => ?_).trans (List.map_id _)
    obtain ⟨s1, s2⟩ := hl x hx
    cases x with
    | mk sh da sp =>
        change sh = _ at s1
        change sp = _ at s2
        subst s1
        subst s2
        rfl
  · intro d hd
    obtain ⟨x, hx, rfl⟩ := List.mem_map.1 hd
    rw [hw x hx (hl x hx).2, (hl x hx).1]

theorem iterate_array (samples rows cols : Nat) (data : List (Num K)) (hd : data.length = samples * (rows * cols)) :
    Stacks (iterate (.array ⟨[samples, rows, cols], data, false⟩)) rows cols ⟨[samples, rows, cols], data, false⟩ ∧
      ∀ x ∈ iterate (.array (⟨[samples, rows, cols], data, false⟩ : Arr K)), x.shape = [rows, cols] ∧ x.sparse = false ∧ WellShaped x := by
  have h0 : ∀ (m n : Nat) (l : List (Num K)), l.length = n * m → (chunks m n l).length = n ∧ (chunks m n l).flatten = l ∧ ∀ d ∈ chunks m n l, d.length = m := by
    intro m n
    induction n with
    | zero =>
        intro l hl
        have : l = [] := List.length_eq_zero_iff.1 (by simpa using hl)
        subst this
        exact ⟨rfl, rfl, by intro d hd; cases hd⟩
    | succ n ih =>
        intro l hl
        have hm : m ≤ l.length := by rw [hl, Nat.add_mul]; omega
        obtain ⟨i1, i2, i3⟩ := ih (l.drop m) (by rw [List.length_drop, hl, Nat.add_mul]; omega)
        unfold chunks
        refine ⟨by rw [List.length_cons, i1], by rw [List.flatten_cons, i2, List.take_append_drop], ?_⟩
        intro d hd
        rcases List.mem_cons.1 hd with rfl | hd
        · rw [List.length_take]; omega
        · exact i3 d hd
  have hprod : [rows, cols].prod = rows * cols := by simp
  obtain ⟨i1, i2, i3⟩ := h0 (rows * cols) samples data hd
  unfold iterate
  dsimp only
  rw [hprod]
  refine ⟨⟨?_, rfl, ?_⟩, ?_⟩
  · rw [List.length_map, i1]
  · rw [List.flatMap_def, List.map_map]
    change data = (List.map id _).flatten
    rw [List.map_id, i2]
  · intro x hx
    obtain ⟨d, hd, rfl⟩ := List.mem_map.1 hx
    exact ⟨rfl, rfl, fun _ => by rw [i3 d hd]; exact hprod.symm⟩

/-- C109: once fitted on anything, `transform` of a list of point clouds or distance matrices (all dense or all sparse) returns the graph of each of them, in order, computed from it
alone, for every order of execution; if one of them is not acceptable or the computation fails for one, so does `transform`.  The data of `fit` do not matter. -/
theorem C109_list (engine : Params K → Arr K → PyM (Graph K)) (p : Params K) (X0 : Input K) (pre : Bool) (hfit : fit p X0 = .ok pre)
    (l : List (Arr K)) (hne : l ≠ []) (hw : ∀ x ∈ l, WellShaped x) (hkind : (∀ x ∈ l, x.sparse = false) ∨ ∀ x ∈ l, x.sparse = true ∧ x.shape.length = 2)
    (order : List Nat) (horder : ∀ i < l.length, i ∈ order) :
    ((∃ x ∈ l, ¬ GoodCloud (!p.metric.isNone) p.metric.isNone x) → transform engine (some pre) p (.list l) order = .error .valueError) ∧
    ((∀ x ∈ l, GoodCloud (!p.metric.isNone) p.metric.isNone x) → transform engine (some pre) p (.list l) order = l.mapM (engine p)) := by
  have hpre : pre = p.metric.isNone := by
    unfold fit at hfit
    dsimp only at hfit
    cases h : checkPointClouds true p.metric.isNone none X0 with
    | error e => rw [h] at hfit; cases hfit
    | ok v => rw [h] at hfit; cases hfit; rfl
  subst hpre
  obtain ⟨u1, u2⟩ := C96_list true p.metric.isNone none l hne (fun x hx h => by
    rcases hkind with hk | hk
    · rw [hk x hx] at h; cases h
    · exact ⟨rfl, (hk x hx).2⟩)
  have hfin : mustBeFinite p.metric.isNone none = !p.metric.isNone := rfl
  rw [hfin] at u1 u2
  unfold transform
  dsimp only
  constructor
  · intro h
    rw [u1 h]
    rfl
  · intro h
    obtain ⟨w, out, e, _, v1, v2⟩ := u2 h
    rw [e, ok_bind]
    dsimp only
    have hit : iterate out = l := by
      by_cases hsame : ∃ x ∈ l, ∃ y ∈ l, x.shape ≠ y.shape
      · rw [v1 hsame]
        rfl
      · obtain ⟨x0, hx0⟩ := List.exists_mem_of_ne_nil l hne
        obtain ⟨r, c, hs, _⟩ := (h x0 hx0).shape
        have hall : ∀ x ∈ l, x.shape = [r, c] := by
          intro x hx
          by_contra hc
          exact hsame ⟨x, hx, x0, hx0, by rw [hs]; exact hc⟩
        obtain ⟨w1, w2⟩ := v2 r c hall
        rcases hkind with hk | hk
        · obtain ⟨a, rfl, ha⟩ := w1 hk
          exact iterate_stacks l r c a ha (fun x hx => ⟨hall x hx, hk x hx⟩) hw
        · rw [w2 fun x hx => (hk x hx).1]
          rfl
    rw [hit, scheduled_ok _ _ (by simpa using horder), List.mapM_map]
    rfl

/-- C109: for an array the result is that for the list of its entries along the first axis. -/
theorem C109_array (engine : Params K → Arr K → PyM (Graph K)) (pre : Bool) (p : Params K) (l : List (Arr K)) (hne : l ≠ []) (rows cols : Nat) (hr : 1 ≤ rows) (hc : 1 ≤ cols)
    (hl : ∀ x ∈ l, x.shape = [rows, cols] ∧ x.sparse = false) (a : Arr K) (ha : Stacks l rows cols a) (order : List Nat) :
    transform engine (some pre) p (.array a) order = transform engine (some pre) p (.list l) order := by
  unfold transform
  dsimp only
  rw [C96_slices true pre none l hne rows cols hr hc hl a ha]

/-- C109: every array of point clouds is the stack of a list of point clouds, to which `C109_array` applies. -/
theorem C109_every_array (samples rows cols : Nat) (data : List (Num K)) (hd : data.length = samples * (rows * cols)) :
    ∃ l : List (Arr K), Stacks l rows cols ⟨[samples, rows, cols], data, false⟩ ∧ ∀ x ∈ l, x.shape = [rows, cols] ∧ x.sparse = false ∧ WellShaped x :=
  ⟨_, iterate_array samples rows cols data hd⟩

/-- C109: before `fit` there is no result. -/
theorem C109_unfitted (engine : Params K → Arr K → PyM (Graph K)) (p : Params K) (X : Input K) (order : List Nat) : transform engine none p X order = .error .notFitted := rfl

end

/-- C109 fails for precomputed matrices with entries less than those on the diagonal: the nearest point is left out. -/
theorem C109_refuted_diagonal (sparse : Params ℚ → Arr ℚ → PyM (Graph ℚ)) :
    let M : List (List ℚ) := [[5, 1, 2], [1, 5, 2], [1, 2, 5]]
    Correct (sortQuery (K := ℚ)) ∧ kneighborsGraph sortQuery sparse ⟨1, .distance, none⟩ (ofRows M 3) = .ok ⟨3, [[(2, 2)], [(2, 2)], [(1, 2)]]⟩ ∧
      ∀ g, g = (⟨3, [[(2, 2)], [(2, 2)], [(1, 2)]]⟩ : Graph ℚ) → ¬ IsKnn 3 1 (entry M) (entry M) g := by
  refine ⟨sortQuery_correct, ?_, ?_⟩
  · rw [kg_dense]
    decide +kernel
  · rintro g rfl h
    have := h.nearest 0 [(2, 2)] rfl (2, 2) (by simp) 1 (by omega) (by omega) (by decide)
    revert this
    decide +kernel

/-- The graphs need not be symmetric. -/
theorem C109_not_symmetric (sparse : Params ℚ → Arr ℚ → PyM (Graph ℚ)) :
    kneighborsGraph sortQuery sparse ⟨1, .connectivity, some fun x y => |x.headD 0 - y.headD 0|⟩ (ofRows [[0], [1], [3]] 1) =
      .ok ⟨3, [[(1, 1)], [(0, 1)], [(1, 1)]]⟩ := by
  rw [kg_dense]
  decide +kernel

/-- Non-vacuity of `C109_cloud`: duplicates get stored zeros. -/
example (sparse : Params ℚ → Arr ℚ → PyM (Graph ℚ)) :
    kneighborsGraph sortQuery sparse ⟨1, .distance, some fun x y => |x.headD 0 - y.headD 0|⟩ (ofRows [[0], [3], [0], [1]] 1) =
      .ok ⟨4, [[(2, 0)], [(3, 2)], [(0, 0)], [(0, 1)]]⟩ := by
  rw [kg_dense]
  decide +kernel

example (sparse : Params ℚ → Arr ℚ → PyM (Graph ℚ)) :
    ∃ g, kneighborsGraph sortQuery sparse ⟨1, .distance, some fun x y => |x.headD 0 - y.headD 0|⟩ (ofRows [[0], [3], [0], [1]] 1) = .ok g ∧ g.n = 4 := by
  obtain ⟨g, h1, h2⟩ := C109_cloud sortQuery sortQuery_correct sparse ⟨1, .distance, some fun x y => |x.headD 0 - y.headD 0|⟩ (fun x y => |x.headD 0 - y.headD 0|) rfl
    (by intro x; simp) (fun x y => abs_nonneg _) [[0], [3], [0], [1]] 1 (by omega) (by intro x hx; simp at hx; rcases hx with rfl | rfl | rfl | rfl <;> rfl) 1 rfl (by omega) (by decide)
  exact ⟨g, h1, h2.vertices⟩

/-- Non-vacuity of `C109_precomputed_partial`. -/
example (sparse : Params ℚ → Arr ℚ → PyM (Graph ℚ)) :
    kneighborsGraph sortQuery sparse ⟨2, .distance, none⟩ (ofRows [[0, 1, 2], [1, 0, 3], [2, 3, 0]] 3) = .ok ⟨3, [[(1, 1), (2, 2)], [(0, 1), (2, 3)], [(0, 2), (1, 3)]]⟩ ∧
      ∀ i < 3, ∀ j < 3, entry ([[0, 1, 2], [1, 0, 3], [2, 3, 0]] : List (List ℚ)) i i ≤ entry [[0, 1, 2], [1, 0, 3], [2, 3, 0]] i j := by
  constructor
  · rw [kg_dense]
    decide +kernel
  · decide +kernel

/-- Non-vacuity of `C109_list`: fit on one collection, transform another with clouds of different sizes, tasks in the reverse order. -/
example :
    let p : Params ℚ := ⟨1, .connectivity, some fun x y => |x.headD 0 - y.headD 0|⟩
    fit p (.list [ofRows [[0, 0], [1, 1]] 2]) = .ok false ∧
    transform (kneighborsGraph sortQuery fun _ _ => .error .typeError) (some false) p (.list [ofRows [[0], [1]] 1, ofRows [[0], [1], [3]] 1]) [1, 0] =
      .ok [⟨2, [[(1, 1)], [(0, 1)]]⟩, ⟨3, [[(1, 1)], [(0, 1)], [(1, 1)]]⟩] := by
  decide +kernel

/-- Non-vacuity of `C109_array`: a stacked collection. -/
example :
    transform (kneighborsGraph sortQuery fun _ _ => .error .typeError) (some false) (⟨1, .connectivity, some fun x y => |x.headD 0 - y.headD 0|⟩ : Params ℚ)
      (.array ⟨[2, 2, 1], [.fin 0, .fin 1, .fin 2, .fin 4], false⟩) [1, 0] = .ok [⟨2, [[(1, 1)], [(0, 1)]]⟩, ⟨2, [[(1, 1)], [(0, 1)]]⟩] := by
  decide +kernel

end Gtda.Props
