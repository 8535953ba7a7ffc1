import Verif.Spec.ClusterObject
import Verif.Props.MapperGaps
import Verif.Props.MapperCluster

/-!
# C120: clusterers as fitted objects
-/

set_option autoImplicit false
set_option linter.unusedSectionVars false

namespace Gtda.Props.ClusterObject

open Py Mapper Gtda.ClusterObject Gtda.Spec.ClusterObject

section
variable {K α : Type} [Field K] [LinearOrder K] [IsStrictOrderedRing K] [FloorRing K]

theorem fit_params (e : Engine α K) (o : Obj K) (X : List α) : (fit e o X).1.params = o.params := by
  unfold fit
  by_cases h0 : X.length = 0
  · rw [if_pos h0]
  · rw [if_neg h0]
    cases checkParams o.params with
    | error err => rfl
    | ok u =>
      dsimp only
      by_cases h1 : X.length = 1
      · rw [if_pos h1]
      · rw [if_neg h1]
        cases buildTree e o.params X with
        | error err => rfl
        | ok t =>
          dsimp only
          cases numClusters o.params.rule t.distances with
          | error err => rfl
          | ok n =>
            dsimp only
            cases e.cut n t <;> rfl

theorem run_params (e : Engine α K) (o : Obj K) (ops : List (Op α K)) : (run e o ops).params = lastParams o.params ops := by
  unfold run
  induction ops generalizing o with
  | nil => rfl
  | cons op t ih =>
    rw [List.foldl_cons, ih]
    cases op with
    | setParams p => rfl
    | fit X =>
      show lastParams (fit e o X).1.params t = _
      rw [fit_params]
      rfl

/-- Fitting depends on the parameters only, except for attributes that are not set. -/
theorem fit_other (e : Engine α K) (o o' : Obj K) (h : o.params = o'.params) (X : List α) :
    (fit e o X).2 = (fit e o' X).2 ∧ ((fit e o X).2 = .ok () → (fit e o X).1.labels = (fit e o' X).1.labels ∧ (fit e o X).1.nClusters = (fit e o' X).1.nClusters ∧
      (2 ≤ X.length → (fit e o X).1 = (fit e o' X).1)) := by
  obtain ⟨p, a1, a2, a3, a4, a5⟩ := o
  obtain ⟨p', b1, b2, b3, b4, b5⟩ := o'
  dsimp only at h
  subst h
  unfold fit
  dsimp only
  split_ifs with h0 h1
  · exact ⟨rfl, nofun⟩
  · cases checkParams p with
    | error err => exact ⟨rfl, nofun⟩
    | ok u => exact ⟨rfl, fun _ => ⟨rfl, rfl, fun h2 => by omega⟩⟩
  · cases checkParams p with
    | error err => exact ⟨rfl, nofun⟩
    | ok u =>
      dsimp only
      cases buildTree e p X with
      | error err => exact ⟨rfl, nofun⟩
      | ok t =>
        dsimp only
        cases numClusters p.rule t.distances with
        | error err => exact ⟨rfl, nofun⟩
        | ok n =>
          dsimp only
          cases e.cut n t with
          | error err => exact ⟨rfl, nofun⟩
          | ok l => exact ⟨rfl, fun _ => ⟨rfl, rfl, fun _ => rfl⟩⟩

theorem buildTree_eq (e : Engine α K) (linkage affinity : String) (r : Rule K) (X : List α) : buildTree e ⟨some linkage, some affinity, r⟩ X = treeFor e linkage affinity X := by
  unfold buildTree treeFor treeBuilders
  dsimp only
  by_cases h1 : linkage = "ward"
  · subst h1
    by_cases h2 : affinity = "euclidean"
    · simp [h2]
    · simp [h2]
  · simp only [h1, false_and, if_false, List.mem_cons, List.not_mem_nil, or_false, false_or]
    by_cases h3 : linkage = "complete" ∨ linkage = "average" ∨ linkage = "single"
    · simp [h3]
    · simp [h3]

theorem checkFraction_ok (x : Option K) (f : K) (h : checkFraction x = .ok f) : x = some f ∧ 0 < f ∧ f ≤ 1 := by
  unfold checkFraction at h
  cases x with
  | none => cases h
  | some g =>
    dsimp only at h
    split_ifs at h with hg
    cases h
    exact ⟨rfl, hg⟩

/-- What accepted parameters are. -/
theorem checkParams_ok (p : Params K) (h : checkParams p = .ok ()) : ∃ linkage affinity, p.linkage = some linkage ∧ p.affinity = some affinity ∧
    ((∃ r f, p.rule = .simple (some r) (some f) ∧ (0 < r ∧ r ≤ 1) ∧ 0 < f ∧ f ≤ 1) ∨ ∃ (thr nStart : Nat) (f : K), p.rule = .histogram thr (some f) nStart ∧ 1 ≤ nStart ∧ 0 < f ∧ f ≤ 1) := by
  obtain ⟨l, a, r⟩ := p
  unfold checkParams at h
  dsimp only at h
  cases a with
  | none => cases h
  | some a =>
    dsimp only at h
    cases r with
    | simple rg mf =>
      dsimp only at h
      cases l with
      | none => cases h
      | some l =>
        dsimp only at h
        cases h1 : checkFraction mf with
        | error err => rw [h1] at h; cases h
        | ok f =>
          rw [h1] at h
          cases h2 : checkFraction rg with
          | error err => rw [h2] at h; cases h
          | ok g =>
            obtain ⟨rfl, hf⟩ := checkFraction_ok _ _ h1
            obtain ⟨rfl, hg⟩ := checkFraction_ok _ _ h2
            exact ⟨l, a, rfl, rfl, Or.inl ⟨g, f, rfl, hg, hf⟩⟩
    | histogram thr mf ns =>
      dsimp only at h
      by_cases h0 : thr < 0
      · rw [if_pos h0] at h
        cases h
      rw [if_neg h0] at h
      cases l with
      | none => cases h
      | some l =>
        dsimp only at h
        cases h1 : checkFraction mf with
        | error err => rw [h1] at h; cases h
        | ok f =>
          rw [h1, ok_bind] at h
          split_ifs at h with h3
          obtain ⟨rfl, hf⟩ := checkFraction_ok _ _ h1
          obtain ⟨n1, rfl⟩ := Int.eq_ofNat_of_zero_le (by omega : 0 ≤ thr)
          obtain ⟨n2, rfl⟩ := Int.eq_ofNat_of_zero_le (by omega : 0 ≤ ns)
          exact ⟨l, a, rfl, rfl, Or.inr ⟨n1, n2, f, rfl, by omega, hf⟩⟩

theorem checkParams_iff (p : Params K) : checkParams p = .ok () ↔ ValidParams p := by
  constructor
  · intro h
    obtain ⟨l, a, hl, ha, ⟨r, f, hr, hg⟩ | ⟨thr, ns, f, hr, hs, hf⟩⟩ := checkParams_ok p h
    · exact ⟨⟨l, hl⟩, ⟨a, ha⟩, .inl ⟨r, f, hr, hg⟩⟩
    · exact ⟨⟨l, hl⟩, ⟨a, ha⟩, .inr ⟨thr, ns, f, hr, by omega, by omega, hf⟩⟩
  · rintro ⟨⟨l, hl⟩, ⟨a, ha⟩, ⟨r, f, hr, h1, h2⟩ | ⟨thr, ns, f, hr, h0, h1, h2⟩⟩
    · unfold checkParams
      rw [hl, ha, hr]
      simp only [checkFraction, if_pos h1, if_pos h2, ok_bind]
    · unfold checkParams
      rw [hl, ha, hr]
      simp only [checkFraction, if_pos h2, ok_bind]
      rw [if_neg (by omega), if_neg (by omega)]

theorem map_clusters_ok {A B : Type} (x : PyM A) (g : A → B) (b : B) (h : x.map g = .ok b) : ∃ a, x = .ok a ∧ g a = b := by
  cases x with
  | error e => cases h
  | ok a => exact ⟨a, rfl, by cases h; rfl⟩

/-- The number of clusters is found, and is at most the number of samples. -/
theorem numClusters_total (p : Params K) (hp : checkParams p = .ok ()) (X : List α) (hX : 2 ≤ X.length) (t : Dendrogram K) (ht : t.distances.length + 1 = X.length) :
    ∃ n, numClusters p.rule t.distances = .ok n ∧ n ≤ X.length := by
  obtain ⟨l, a, _, _, ⟨r, f, hr, hg, hf⟩ | ⟨thr, ns, f, hr, hs, hf⟩⟩ := checkParams_ok p hp
  · rw [hr]
    have hne : t.distances ≠ [] := by
      intro h
      rw [h] at ht
      simp at ht
      omega
    have hlast := List.getLast?_eq_some_getLast hne
    obtain ⟨n, h1, _, _, h2, _⟩ := C49_first_gap_partial (fun _ : List α => .ok t) (fun _ _ => .ok []) r f hg hf X hX t rfl ht _ hlast
    unfold numClusters
    dsimp only
    rw [hlast]
    have hcg : checkFraction (some r) = .ok r := by
      unfold checkFraction
      exact if_pos hg
    dsimp only
    rw [hcg, ok_bind]
    refine ⟨_, rfl, ?_⟩
    have : firstSimpleGapFit (fun _ : List α => .ok t) (fun _ _ => .ok []) (some r) (some f) X = .ok ⟨numClustersSimple t.distances (r * t.distances.getLast hne) (some f), []⟩ := by
      unfold firstSimpleGapFit
      have hcf : checkFraction (some f) = .ok f := by
        unfold checkFraction
        exact if_pos hf
      rw [if_neg (by omega), hcf, hcg, ok_bind, ok_bind, if_neg (by omega), ok_bind, hlast]
      rfl
    rw [this] at h1
    cases h1
    exact h2
  · rw [hr]
    have hcf : checkFraction (some f) = .ok f := by
      unfold checkFraction
      exact if_pos hf
    unfold numClusters
    dsimp only
    rw [hcf, ok_bind]
    by_cases h3 : 3 ≤ X.length
    · obtain ⟨a, b, k, g, n, _, _, _, _, _, _, _, h1, _, h2, _⟩ := C50_histogram_gap (fun _ : List α => .ok t) (fun _ _ => .ok []) thr ns hs f hf X h3 t rfl ht
      have h4 := h1 (t.distances.length + 1) (by omega)
      unfold firstHistogramGapFit at h4
      rw [if_neg (by omega), if_neg (by omega), hcf, ok_bind, if_neg (by omega), if_neg (by omega), ok_bind] at h4
      cases h5 : numClustersHistogram (t.distances.length + 1) t.distances ((thr : Int)).toNat ((ns : Int)).toNat f with
      | none =>
        rw [h5] at h4
        cases h4
      | some n' =>
        rw [h5] at h4
        cases h4
        exact ⟨_, rfl, h2⟩
    · have h1 : t.distances.length = 1 := by omega
      unfold numClustersHistogram
      rw [if_pos h1]
      exact ⟨1, rfl, by omega⟩

end

/-! ### `ParallelClustering` -/

section
variable {Prm F K W C : Type}

theorem behaviour_params (cl : ClusterClass Prm F K W C) (p : Prm) (f f' : F) : behaviour cl (p, f) = behaviour cl (p, f') := rfl

theorem parFit_clusterer (cl : ClusterClass Prm F K W C) (order : List Nat) (o : ParObj Prm F C) (X : List (List K)) (cols : List (List Bool)) (b : Bool) (w : Option (List W)) :
    (parFit cl order o X cols b w).1.clusterer = o.clusterer := by
  unfold parFit
  by_cases h1 : X.length = 0 ∨ (X.headD []).length = 0
  · rw [if_pos h1]
  rw [if_neg h1]
  by_cases h2 : cols.length = 0 ∨ (cols.headD []).length = 0
  · rw [if_pos h2]
  rw [if_neg h2]
  by_cases h3 : ¬ b
  · rw [if_pos h3]
  rw [if_neg h3]
  by_cases h4 : X.length ≠ (cols.headD []).length
  · rw [if_pos h4]
  rw [if_neg h4]
  cases validateClusterer (behaviour cl o.clusterer) with
  | error err => rfl
  | ok pre =>
    dsimp only
    cases scheduled (cols.map fun col _ => labelsSingle (behaviour cl o.clusterer) pre X w (flatnonzero col)) order <;> rfl

theorem parRun_params (cl : ClusterClass Prm F K W C) (o : ParObj Prm F C) (ops : List (ParOp Prm F K W)) : (parRun cl o ops).clusterer.1 = lastClusterer o.clusterer.1 ops := by
  unfold parRun
  induction ops generalizing o with
  | nil => rfl
  | cons op t ih =>
    rw [List.foldl_cons, ih]
    cases op with
    | setClusterer p f => rfl
    | setParams p => rfl
    | fitClusterer f => rfl
    | fit order X cols b w =>
      show lastClusterer (parFit cl order o X cols b w).1.clusterer.1 t = _
      rw [parFit_clusterer]
      rfl

theorem collect_eq (ts : List (List Nat × List C)) : ∀ (i : Nat) (labels : List (List (Nat × C))),
    collectLabels i ts labels = (match (collect i ts labels).2 with
      | .ok () => .ok (collect i ts labels).1
      | .error err => .error err) := by
  induction ts with
  | nil => intro i labels; rfl
  | cons t ts ih =>
    intro i labels
    rw [collectLabels, collect]
    cases addLabels i labels t with
    | error err => rfl
    | ok l => exact ih (i + 1) l

theorem mapM_ok_mem {A B : Type} (f : A → PyM B) (l : List A) : ∀ (r : List B), l.mapM f = .ok r → ∀ b ∈ r, ∃ a ∈ l, f a = .ok b := by
  induction l with
  | nil =>
    intro r h b hb
    rw [List.mapM_nil] at h
    cases h
    cases hb
  | cons a l ih =>
    intro r h b hb
    rw [List.mapM_cons] at h
    cases ha : f a with
    | error err => rw [ha] at h; cases h
    | ok x =>
      rw [ha, ok_bind] at h
      cases hl : l.mapM f with
      | error err => rw [hl] at h; cases h
      | ok r' =>
        rw [hl] at h
        cases h
        rcases List.mem_cons.1 hb with rfl | hb
        · exact ⟨a, List.mem_cons_self, ha⟩
        · obtain ⟨a', ha', h'⟩ := ih r' hl b hb
          exact ⟨a', List.mem_cons_of_mem _ ha', h'⟩

theorem runSchedule_mem {β : Type} (tasks : List (Unit → β)) (order : List Nat) : ∀ x, some x ∈ Parallel.runSchedule tasks order → ∃ t ∈ tasks, t () = x := by
  unfold Parallel.runSchedule
  have : ∀ (order : List Nat) (slots : List (Option β)), (∀ x, some x ∈ slots → ∃ t ∈ tasks, t () = x) →
      ∀ x, some x ∈ order.foldl (fun slots k => slots.set k ((tasks[k]?).map fun t => t ())) slots → ∃ t ∈ tasks, t () = x := by
    intro order
    induction order with
    | nil => intro slots h; exact h
    | cons k t ih =>
      intro slots h
      rw [List.foldl_cons]
      apply ih
      intro x hx
      rcases List.mem_or_eq_of_mem_set hx with h1 | h1
      · exact h x h1
      · cases hk : tasks[k]? with
        | none => rw [hk] at h1; cases h1
        | some f =>
          rw [hk, Option.map_some] at h1
          cases h1
          exact ⟨f, List.mem_of_getElem? hk, rfl⟩
  apply this
  intro x hx
  rw [List.mem_replicate] at hx
  cases hx.2

theorem collect_ok (ts : List (List Nat × List C)) (h : ∀ t ∈ ts, t.2.length = t.1.length) : ∀ (i : Nat) (labels : List (List (Nat × C))), (collect i ts labels).2 = .ok () := by
  induction ts with
  | nil => intro i labels; rfl
  | cons t ts ih =>
    intro i labels
    rw [collect]
    unfold addLabels
    rw [if_pos (h t List.mem_cons_self)]
    exact ih (fun t ht => h t (List.mem_cons_of_mem _ ht)) _ _

theorem mapM_length {A B : Type} (f : A → PyM B) (l : List A) : ∀ (r : List B), l.mapM f = .ok r → r.length = l.length := by
  induction l with
  | nil =>
    intro r h
    rw [List.mapM_nil] at h
    cases h
    rfl
  | cons a l ih =>
    intro r h
    rw [List.mapM_cons] at h
    cases ha : f a with
    | error err => rw [ha] at h; cases h
    | ok x =>
      rw [ha, ok_bind] at h
      cases hl : l.mapM f with
      | error err => rw [hl] at h; cases h
      | ok r' =>
        rw [hl] at h
        cases h
        rw [List.length_cons, List.length_cons, ih r' hl]

theorem fancy_length {A : Type} (l : List A) (idx : List Int) (r : List A) (h : fancy l idx = .ok r) : r.length = idx.length := mapM_length _ _ _ h

theorem labelsSingle_length (cl : ClusterClass Prm F K W C) (h1 : OneLabelEach cl) (o : Prm × F) (pre : Bool) (X : List (List K)) (w : Option (List W)) (idx : List Nat) (r : List Nat × List C)
    (h : labelsSingle (behaviour cl o) pre X w idx = .ok r) : r.2.length = r.1.length := by
  unfold labelsSingle at h
  cases hp : portion pre X idx with
  | error err => rw [hp] at h; cases h
  | ok sub =>
    rw [hp, ok_bind] at h
    cases hw : weightsFor (behaviour cl o) w idx with
    | error err => rw [hw] at h; cases h
    | ok v =>
      rw [hw, ok_bind] at h
      cases hf : cl.fit (clone cl o).1 (clone cl o).2 sub v with
      | error err =>
        have : (behaviour cl o).labels sub v = .error err := by
          unfold behaviour
          dsimp only
          rw [hf]
          rfl
        rw [this] at h
        cases h
      | ok q =>
        have : (behaviour cl o).labels sub v = .ok q.2 := by
          unfold behaviour
          dsimp only
          rw [hf]
          rfl
        rw [this] at h
        cases h
        dsimp only
        rw [h1 _ _ _ _ q.1 q.2 hf]
        unfold portion at hp
        cases hr : fancy X (idx.map Int.ofNat) with
        | error err => rw [hr] at hp; cases hp
        | ok rows =>
          rw [hr, ok_bind] at hp
          have hl := fancy_length _ _ _ hr
          rw [List.length_map] at hl
          split_ifs at hp
          · rw [mapM_length _ _ _ hp, hl]
          · cases hp
            exact hl

end

end Gtda.Props.ClusterObject

namespace Gtda.Props

open Py Mapper Gtda.ClusterObject Gtda.Spec.ClusterObject Gtda.Props.ClusterObject

section
variable {K α : Type} [Field K] [LinearOrder K] [IsStrictOrderedRing K] [FloorRing K]

/-- **C120.** Whatever was done with a clusterer before (changes of parameters, fits, failed fits), fitting it succeeds or raises as fitting a new object with the current parameters does; if it succeeds, `labels_`
and `n_clusters_` are those of the new object, and for at least two samples all attributes are. -/
theorem C120_latest_fit (e : Engine α K) (p : Params K) (history : List (Op α K)) (X : List α) :
    (fit e (run e ⟨p, none, none, none, none, none⟩ history) X).2 = (fit e ⟨lastParams p history, none, none, none, none, none⟩ X).2 ∧
    ((fit e (run e ⟨p, none, none, none, none, none⟩ history) X).2 = .ok () →
      (fit e (run e ⟨p, none, none, none, none, none⟩ history) X).1.labels = (fit e ⟨lastParams p history, none, none, none, none, none⟩ X).1.labels ∧
      (fit e (run e ⟨p, none, none, none, none, none⟩ history) X).1.nClusters = (fit e ⟨lastParams p history, none, none, none, none, none⟩ X).1.nClusters ∧
      (2 ≤ X.length → (fit e (run e ⟨p, none, none, none, none, none⟩ history) X).1 = (fit e ⟨lastParams p history, none, none, none, none, none⟩ X).1)) :=
  fit_other e _ _ (run_params e _ history) X

/-- **C120.** `FirstSimpleGap`: for any object with these parameters, `fit_predict` returns or raises what the function of C49 does, for the tree that belongs to `linkage` and `affinity`, and `n_clusters_` is its number. -/
theorem C120_simple (e : Engine α K) (o : Obj K) (linkage affinity : String) (relGap maxFrac : Option K) (ho : o.params = ⟨some linkage, some affinity, .simple relGap maxFrac⟩) (X : List α) :
    (fitPredict e o X).2 = (fun c => c.labels) <$> firstSimpleGapFit (treeFor e linkage affinity) e.cut relGap maxFrac X ∧
    ∀ c, firstSimpleGapFit (treeFor e linkage affinity) e.cut relGap maxFrac X = .ok c → (fitPredict e o X).1.nClusters = some c.n ∧ (fitPredict e o X).1.labels = some c.labels := by
  unfold fitPredict fit firstSimpleGapFit checkParams
  rw [ho]
  dsimp only
  by_cases h0 : X.length = 0
  · rw [if_pos h0, if_pos h0]
    exact ⟨rfl, nofun⟩
  rw [if_neg h0, if_neg h0]
  cases hf : checkFraction maxFrac with
  | error err => exact ⟨rfl, nofun⟩
  | ok f =>
    rw [ok_bind, ok_bind]
    cases hg : checkFraction relGap with
    | error err => exact ⟨rfl, nofun⟩
    | ok g =>
      obtain ⟨rfl, _⟩ := checkFraction_ok _ _ hf
      rw [ok_bind, ok_bind]
      dsimp only
      by_cases h1 : X.length = 1
      · rw [if_pos h1, if_pos h1]
        refine ⟨rfl, ?_⟩
        intro c hc
        cases hc
        exact ⟨rfl, rfl⟩
      rw [if_neg h1, if_neg h1, buildTree_eq]
      cases treeFor e linkage affinity X with
      | error err => exact ⟨rfl, nofun⟩
      | ok t =>
        rw [ok_bind]
        dsimp only
        unfold numClusters
        dsimp only
        cases t.distances.getLast? with
        | none => exact ⟨rfl, nofun⟩
        | some last =>
          dsimp only
          rw [hg, ok_bind]
          dsimp only
          cases e.cut (numClustersSimple t.distances (g * last) (some f)) t with
          | error err => exact ⟨rfl, nofun⟩
          | ok l =>
            refine ⟨rfl, ?_⟩
            intro c hc
            cases hc
            exact ⟨rfl, rfl⟩

/-- **C120.** `FirstHistogramGap`: the same with the function of C50. -/
theorem C120_histogram (e : Engine α K) (hs : Sound e) (o : Obj K) (linkage affinity : String) (thr nStart : Int) (maxFrac : Option K)
    (ho : o.params = ⟨some linkage, some affinity, .histogram thr maxFrac nStart⟩) (X : List α) :
    (some <$> (fitPredict e o X).2 : PyM (Option (List Nat))) = (fun c => c.map fun c => c.labels) <$> firstHistogramGapFit X.length (treeFor e linkage affinity) e.cut thr maxFrac nStart X ∧
    ∀ c, firstHistogramGapFit X.length (treeFor e linkage affinity) e.cut thr maxFrac nStart X = .ok (some c) →
      (fitPredict e o X).1.nClusters = some c.n ∧ (fitPredict e o X).1.labels = some c.labels := by
  have htot := numClusters_total (α := α) o.params
  unfold fitPredict fit firstHistogramGapFit
  unfold checkParams at htot ⊢
  rw [ho] at htot ⊢
  dsimp only at htot ⊢
  by_cases h0 : X.length = 0
  · rw [if_pos h0, if_pos h0]
    exact ⟨rfl, nofun⟩
  rw [if_neg h0, if_neg h0]
  by_cases ht : thr < 0
  · rw [if_pos ht, if_pos ht]
    exact ⟨rfl, nofun⟩
  rw [if_neg ht] at htot
  rw [if_neg ht, if_neg ht]
  cases hf : checkFraction maxFrac with
  | error err => exact ⟨rfl, nofun⟩
  | ok f =>
    rw [hf, ok_bind] at htot
    rw [ok_bind, ok_bind]
    by_cases hn : nStart < 1
    · rw [if_pos hn, if_pos hn]
      exact ⟨rfl, nofun⟩
    rw [if_neg hn] at htot
    rw [if_neg hn, if_neg hn]
    dsimp only
    by_cases h1 : X.length = 1
    · rw [if_pos h1, if_pos h1]
      refine ⟨rfl, ?_⟩
      intro c hc
      cases hc
      exact ⟨rfl, rfl⟩
    rw [if_neg h1, if_neg h1, buildTree_eq]
    cases hb : treeFor e linkage affinity X with
    | error err => exact ⟨rfl, nofun⟩
    | ok t =>
      obtain ⟨_, hd, _⟩ := hs linkage affinity X t (by omega) hb
      obtain ⟨n, hnum, _⟩ := htot rfl X (by omega) t hd
      rw [ok_bind]
      dsimp only
      rw [hnum]
      unfold numClusters at hnum
      dsimp only at hnum
      rw [hf, ok_bind, hd] at hnum
      cases hh : numClustersHistogram X.length t.distances thr.toNat nStart.toNat f with
      | none => rw [hh] at hnum; cases hnum
      | some n' =>
        rw [hh] at hnum
        cases hnum
        dsimp only
        cases e.cut n t with
        | error err => exact ⟨rfl, nofun⟩
        | ok l =>
          refine ⟨rfl, ?_⟩
          intro c hc
          cases hc
          exact ⟨rfl, rfl⟩

/-- **C120.** A fit that raises leaves the object as it was (given what scikit-learn's functions guarantee). -/
theorem C120_failed_fit (e : Engine α K) (hs : Sound e) (o : Obj K) (X : List α) (err : PyErr) (h : (fit e o X).2 = .error err) : (fit e o X).1 = o := by
  have htot := numClusters_total (α := α) o.params
  unfold fit at h ⊢
  by_cases h0 : X.length = 0
  · rw [if_pos h0]
  rw [if_neg h0] at h ⊢
  cases hc : checkParams o.params with
  | error err => rfl
  | ok u =>
    rw [hc] at h
    dsimp only at h ⊢
    by_cases h1 : X.length = 1
    · rw [if_pos h1] at h
      cases h
    rw [if_neg h1] at h ⊢
    obtain ⟨l, a, hl, ha, _⟩ := checkParams_ok o.params hc
    have hb : buildTree e o.params X = treeFor e l a X := by
      rw [← buildTree_eq e l a o.params.rule X, ← hl, ← ha]
    rw [hb] at h ⊢
    cases ht : treeFor e l a X with
    | error err => rfl
    | ok t =>
      rw [ht] at h
      obtain ⟨_, hd, hcut⟩ := hs l a X t (by omega) ht
      obtain ⟨n, hn, hle⟩ := htot hc X (by omega) t hd
      obtain ⟨ls, hls⟩ := hcut n hle
      dsimp only at h
      rw [hn] at h
      dsimp only at h
      rw [hls] at h
      cases h

/-- **C120.** Parameters outside their ranges are rejected with `TypeError` or `ValueError` whatever the data, the object unchanged. -/
theorem C120_invalid (e : Engine α K) (o : Obj K) (h : ¬ ValidParams o.params) (X : List α) :
    fit e o X = (o, .error .valueError) ∨ fit e o X = (o, .error .typeError) := by
  rw [← checkParams_iff] at h
  unfold fit
  by_cases hX : X.length = 0
  · rw [if_pos hX]
    exact .inl rfl
  rw [if_neg hX]
  have herr : ∃ err, checkParams o.params = .error err ∧ (err = .valueError ∨ err = .typeError) := by
    have hfr : ∀ x : Option K, (∃ f, checkFraction x = .ok f) ∨ checkFraction x = .error .valueError ∨ checkFraction x = .error .typeError := by
      intro x
      unfold checkFraction
      cases x with
      | none => simp
      | some f => dsimp only; split_ifs <;> simp
    generalize o.params = p at h ⊢
    obtain ⟨linkage, affinity, rule⟩ := p
    unfold checkParams at h ⊢
    dsimp only at h ⊢
    cases affinity with
    | none => exact ⟨_, rfl, .inr rfl⟩
    | some a =>
      dsimp only at h ⊢
      cases rule with
      | simple rg mf =>
        cases linkage with
        | none => exact ⟨_, rfl, .inr rfl⟩
        | some l =>
          dsimp only at h ⊢
          rcases hfr mf with ⟨f, hf⟩ | hf | hf <;> rw [hf] at h ⊢
          · rcases hfr rg with ⟨g, hg⟩ | hg | hg <;> rw [hg] at h ⊢
            · exact absurd rfl h
            · exact ⟨_, rfl, .inl rfl⟩
            · exact ⟨_, rfl, .inr rfl⟩
          · exact ⟨_, rfl, .inl rfl⟩
          · exact ⟨_, rfl, .inr rfl⟩
      | histogram thr mf ns =>
        dsimp only at h ⊢
        by_cases h0 : thr < 0
        · rw [if_pos h0]
          exact ⟨_, rfl, .inl rfl⟩
        rw [if_neg h0] at h ⊢
        cases linkage with
        | none => exact ⟨_, rfl, .inr rfl⟩
        | some l =>
          dsimp only at h ⊢
          rcases hfr mf with ⟨f, hf⟩ | hf | hf <;> rw [hf] at h ⊢
          · rw [ok_bind] at h ⊢
            by_cases h1 : ns < 1
            · rw [if_pos h1]
              exact ⟨_, rfl, .inl rfl⟩
            · rw [if_neg h1] at h
              exact absurd rfl h
          · exact ⟨_, rfl, .inl rfl⟩
          · exact ⟨_, rfl, .inr rfl⟩
  obtain ⟨err, h1, rfl | rfl⟩ := herr <;> rw [h1]
  · exact .inl rfl
  · exact .inr rfl

/-- **C120.** With at least two samples and otherwise valid parameters, `'ward'` with an affinity that is not Euclidean and unknown linkages are rejected with `ValueError`, the object unchanged; otherwise
`children_`, `n_leaves_` and `distances_` after a successful fit are those of Ward's tree or of the tree with the linkage and affinity given. -/
theorem C120_linkage (e : Engine α K) (o : Obj K) (linkage affinity : String) (hl : o.params.linkage = some linkage) (ha : o.params.affinity = some affinity) (hvalid : ValidParams o.params) (X : List α)
    (hX : 2 ≤ X.length) :
    ((linkage = "ward" ∧ affinity ≠ "euclidean") ∨ linkage ∉ ["ward", "complete", "average", "single"] → fit e o X = (o, .error .valueError)) ∧
    ((fit e o X).2 = .ok () → ∃ t, (if linkage = "ward" then e.ward X else e.linkageTree linkage affinity X) = .ok t ∧
      (fit e o X).1.children = some t.children ∧ (fit e o X).1.leaves = some t.leaves ∧ (fit e o X).1.distances = some t.distances ∧
      ∃ n l, e.cut n t = .ok l ∧ (fit e o X).1.nClusters = some n ∧ (fit e o X).1.labels = some l) := by
  have hc := (checkParams_iff o.params).2 hvalid
  have hb : buildTree e o.params X = treeFor e linkage affinity X := by
    rw [← buildTree_eq e linkage affinity o.params.rule X, ← hl, ← ha]
  unfold fit
  rw [if_neg (by omega), hc]
  dsimp only
  rw [if_neg (by omega), hb]
  constructor
  · rintro (⟨rfl, h⟩ | h)
    · unfold treeFor
      rw [if_pos rfl, if_neg h]
    · simp only [List.mem_cons, List.not_mem_nil, or_false, not_or] at h
      unfold treeFor
      rw [if_neg h.1, if_neg (by rintro (h1 | h1 | h1); exacts [h.2.1 h1, h.2.2.1 h1, h.2.2.2 h1])]
  · intro h
    cases ht : treeFor e linkage affinity X with
    | error err =>
      rw [ht] at h
      cases h
    | ok t =>
      rw [ht] at h
      dsimp only at h ⊢
      have htree : (if linkage = "ward" then e.ward X else e.linkageTree linkage affinity X) = .ok t := by
        unfold treeFor at ht
        split_ifs at ht with h1 h2 h3
        · rw [if_pos h1]
          exact ht
        · rw [if_neg h1]
          exact ht
      refine ⟨t, htree, ?_⟩
      cases hn : numClusters o.params.rule t.distances with
      | error err => rw [hn] at h; cases h
      | ok n =>
        rw [hn] at h
        dsimp only at h ⊢
        cases hl : e.cut n t with
        | error err => rw [hl] at h; cases h
        | ok l => exact ⟨rfl, rfl, rfl, n, l, hl, rfl, rfl⟩

end

/-- An engine for examples: chains of merges. -/
def exEngine : Engine ℚ ℚ where
  ward := fun X => .ok ⟨(List.range (X.length - 1)).map fun i => (i, i + 1), X.length, (List.range (X.length - 1)).map fun i => (i : ℚ) + 1⟩
  linkageTree := fun l a X => if a = "euclidean" then .ok ⟨(List.range (X.length - 1)).map fun i => (i, i + 1), X.length, (List.range (X.length - 1)).map fun i => if l = "single" then (i : ℚ) + 1 else (i : ℚ) * i + 1⟩
    else .error .valueError
  cut := fun n t => .ok ((List.range t.leaves).map fun i => i % (max n 1).toNat)

example : Sound exEngine := by
  intro l a X t hX h
  have key : t.leaves = X.length ∧ t.distances.length = X.length - 1 := by
    unfold treeFor exEngine at h
    dsimp only at h
    split_ifs at h <;> cases h <;> simp
  exact ⟨key.1, by omega, fun n _ => ⟨_, rfl⟩⟩

/-- The parameters of the examples. -/
def exParams : Params ℚ := ⟨some "complete", some "euclidean", .simple (some (1 / 2)) (some 1)⟩

/-- A fraction of 0 is rejected. -/
example : ¬ ValidParams (K := ℚ) { exParams with rule := .simple (some 0) (some 1) } ∧ fit exEngine ⟨{ exParams with rule := .simple (some 0) (some 1) }, none, none, none, none, none⟩ [(1 : ℚ), 2] =
    (⟨{ exParams with rule := .simple (some 0) (some 1) }, none, none, none, none, none⟩, .error .valueError) := by
  rw [← checkParams_iff]
  constructor <;> decide +kernel

example : ValidParams exParams ∧ fit exEngine ⟨exParams, none, none, none, none, none⟩ [1, 2, 3, 5] =
    (⟨exParams, some [(0, 1), (1, 2), (2, 3)], some 4, some [1, 2, 5], some 2, some [0, 1, 0, 1]⟩, .ok ()) := by
  rw [← checkParams_iff]
  constructor <;> decide +kernel

/-- **C120, false of the tree after a fit of a single sample.** `children_`, `n_leaves_` and `distances_` are those of an earlier fit on other data. -/
theorem C120_refuted_stale_tree : ∃ (e : Engine ℚ ℚ) (p : Params ℚ) (history : List (Op ℚ ℚ)), ValidParams p ∧
    fit e (run e ⟨p, none, none, none, none, none⟩ history) [7] = (⟨p, some [(0, 1), (1, 2)], some 3, some [1, 2], some 1, some [0]⟩, .ok ()) ∧
    fit e ⟨p, none, none, none, none, none⟩ [7] = (⟨p, none, none, none, some 1, some [0]⟩, .ok ()) :=
  ⟨exEngine, exParams, [.fit [1, 2, 3]], (checkParams_iff _).1 (by decide +kernel), by decide +kernel, by decide +kernel⟩

/-- **C120, an unknown linkage is not always rejected**: not if there is one sample, and Ward's linkage with another affinity neither. -/
theorem C120_refuted_linkage_one_sample : ∃ (e : Engine ℚ ℚ) (p q : Params ℚ), p.linkage = some "centroid" ∧ q.linkage = some "ward" ∧ q.affinity = some "manhattan" ∧
    (fit e ⟨p, none, none, none, none, none⟩ [7]).2 = .ok () ∧ (fit e ⟨q, none, none, none, none, none⟩ [7]).2 = .ok () ∧
    (fit e ⟨p, none, none, none, none, none⟩ [7, 8]).2 = .error .valueError ∧ (fit e ⟨q, none, none, none, none, none⟩ [7, 8]).2 = .error .valueError := by
  refine ⟨exEngine, { exParams with linkage := some "centroid" }, { exParams with linkage := some "ward", affinity := some "manhattan" }, rfl, rfl, rfl, ?_, ?_, ?_, ?_⟩ <;> decide +kernel

section
variable {Prm F K W C : Type}

/-- **C120.** `ParallelClustering`: whatever was done with the object and its clusterer before, `fit_transform` returns or raises what the function of C45 does for the current parameters of the clusterer; the clusterer
object itself is neither changed nor does it matter whether it was fitted. -/
theorem C120_parallel (cl : ClusterClass Prm F K W C) (p : Prm) (f : F) (history : List (ParOp Prm F K W)) (order : List Nat) (X : List (List K)) (cols : List (List Bool)) (w : Option (List W))
    (o : ParObj Prm F C) (ho : o = parRun cl ⟨(p, f), none⟩ history) :
    (parFitTransform cl order o X cols true w).2 = some <$> parallelClusteringFit (newClusterer cl (lastClusterer p history)) order X cols w ∧
    (parFitTransform cl order o X cols true w).1.clusterer = o.clusterer := by
  have hp := parRun_params cl ⟨(p, f), none⟩ history
  rw [← ho] at hp
  have hb : behaviour cl o.clusterer = newClusterer cl (lastClusterer p history) := by
    rw [← hp]
    rfl
  have hcl := parFit_clusterer cl order o X cols true w
  constructor
  · unfold parFitTransform parFit parallelClusteringFit
    rw [← hb]
    by_cases h1 : X.length = 0 ∨ (X.headD []).length = 0
    · rw [if_pos h1, if_pos h1]
      rfl
    rw [if_neg h1, if_neg h1]
    by_cases h2 : cols.length = 0 ∨ (cols.headD []).length = 0
    · rw [if_pos h2, if_pos h2]
      rfl
    rw [if_neg h2, if_neg h2, if_neg (by simp)]
    by_cases h4 : X.length ≠ (cols.headD []).length
    · rw [if_pos h4, if_pos h4]
      rfl
    rw [if_neg h4, if_neg h4]
    cases validateClusterer (behaviour cl o.clusterer) with
    | error err => rfl
    | ok pre =>
      rw [ok_bind]
      dsimp only
      cases scheduled (cols.map fun col _ => labelsSingle (behaviour cl o.clusterer) pre X w (flatnonzero col)) order with
      | error err => rfl
      | ok single =>
        rw [ok_bind, collect_eq]
        dsimp only
        cases (collect 0 single (List.replicate X.length [])).2 <;> rfl
  · unfold parFitTransform
    rcases hq : parFit cl order o X cols true w with ⟨o', err | u⟩
    · rw [hq] at hcl
      exact hcl
    · rw [hq] at hcl
      exact hcl

/-- **C120.** A fit of `ParallelClustering` that raises leaves `labels_` as it was (arguments or clusterer rejected) or sets it to `None` (a clusterer raised): incomplete labels cannot be read. -/
theorem C120_parallel_failed (cl : ClusterClass Prm F K W C) (h1 : OneLabelEach cl) (order : List Nat) (o : ParObj Prm F C) (X : List (List K)) (cols : List (List Bool)) (b : Bool) (w : Option (List W)) (err : PyErr)
    (h : (parFit cl order o X cols b w).2 = .error err) : (parFit cl order o X cols b w).1 = o ∨ (parFit cl order o X cols b w).1 = { o with labels := some none } := by
  unfold parFit at h ⊢
  by_cases c1 : X.length = 0 ∨ (X.headD []).length = 0
  · rw [if_pos c1]
    exact Or.inl rfl
  rw [if_neg c1] at h ⊢
  by_cases c2 : cols.length = 0 ∨ (cols.headD []).length = 0
  · rw [if_pos c2]
    exact Or.inl rfl
  rw [if_neg c2] at h ⊢
  by_cases c3 : ¬ b
  · rw [if_pos c3]
    exact Or.inl rfl
  rw [if_neg c3] at h ⊢
  by_cases c4 : X.length ≠ (cols.headD []).length
  · rw [if_pos c4]
    exact Or.inl rfl
  rw [if_neg c4] at h ⊢
  cases hv : validateClusterer (behaviour cl o.clusterer) with
  | error err => exact Or.inl rfl
  | ok pre =>
    rw [hv] at h
    dsimp only at h ⊢
    cases hs : scheduled (cols.map fun col _ => labelsSingle (behaviour cl o.clusterer) pre X w (flatnonzero col)) order with
    | error err => exact Or.inr rfl
    | ok single =>
      rw [hs] at h
      dsimp only at h
      rw [collect_ok single ?_] at h
      · cases h
      · intro t ht
        unfold scheduled at hs
        obtain ⟨r, hr, hrt⟩ := mapM_ok_mem _ _ _ hs t ht
        cases r with
        | none => cases hrt
        | some x =>
          dsimp only at hrt
          obtain ⟨f, hf, hfx⟩ := runSchedule_mem _ _ x hr
          obtain ⟨col, _, rfl⟩ := List.mem_map.1 hf
          rw [← hfx] at hrt
          exact labelsSingle_length cl h1 _ _ _ _ _ _ hrt

/-- **C120.** `labels_` stays what it is until the next fit: replacing the clusterer, changing its parameters and fitting it do not change it. -/
theorem C120_parallel_kept (cl : ClusterClass Prm F K W C) (o : ParObj Prm F C) (ops : List (ParOp Prm F K W)) (h : ∀ op ∈ ops, ¬ IsFit op) : (parRun cl o ops).labels = o.labels := by
  unfold parRun
  induction ops generalizing o with
  | nil => rfl
  | cons op t ih =>
    rw [List.foldl_cons, ih _ fun q hq => h q (List.mem_cons_of_mem _ hq)]
    cases op with
    | fit order X cols b w => exact absurd trivial (h _ List.mem_cons_self)
    | setClusterer p f => rfl
    | setParams p => rfl
    | fitClusterer f => rfl

/-- **C120.** Masks that are not boolean are rejected with `TypeError`, the object unchanged. -/
theorem C120_parallel_masks (cl : ClusterClass Prm F K W C) (order : List Nat) (o : ParObj Prm F C) (X : List (List K)) (cols : List (List Bool)) (w : Option (List W))
    (hX : X ≠ [] ∧ X.head? ≠ some []) (hc : cols ≠ [] ∧ cols.head? ≠ some []) : parFit cl order o X cols false w = (o, .error .typeError) := by
  unfold parFit
  obtain ⟨h1, h2⟩ := hX
  obtain ⟨h3, h4⟩ := hc
  cases X with
  | nil => exact absurd rfl h1
  | cons r X =>
    cases r with
    | nil => exact absurd rfl h2
    | cons a r =>
      cases cols with
      | nil => exact absurd rfl h3
      | cons c cols =>
        cases c with
        | nil => exact absurd rfl h4
        | cons b c =>
          rw [if_neg (by simp), if_neg (by simp), if_pos (by simp)]

end

/-- A class of clusterers for examples: the labels are the first entries, shifted by the number of fits so far. A negative entry raises. -/
def exClass : ClusterClass Int Int Int Int Int where
  isMixin := true
  metrics := fun _ => []
  takesWeights := false
  fresh := 0
  fit := fun p f X _ => if X.any (fun r => r.headD 0 < 0) then .error .valueError else .ok (f + 1, X.map fun r => r.headD 0 + p + f)

example : OneLabelEach exClass := by
  intro p f X w f' l h
  unfold exClass at h
  dsimp only at h
  split_ifs at h
  cases h
  rw [List.length_map]

example : (parFitTransform exClass [0, 1] (parRun exClass ⟨(0, 0), none⟩ [.fit [0] [[1], [2]] [[true, true]] true none, .fitClusterer 5, .setParams 100]) [[1], [2], [3]] [[true, true, false], [false, true, true]] true none).2 =
    .ok (some [[(0, 101)], [(0, 102), (1, 102)], [(1, 103)]]) := by decide +kernel

/-- Labels survive a change of parameters (`C120_parallel_kept`). -/
example : (parRun exClass ⟨(0, 0), none⟩ [.fit [0] [[1], [2]] [[true, true]] true none, .setParams 100, .fitClusterer 5, .setClusterer 7 0]).labels = some (some [[(0, 1)], [(0, 2)]]) := by decide +kernel

/-- After a clusterer raised, `labels_` is `None`, also if there were labels before. -/
example : (parRun exClass ⟨(0, 0), none⟩ [.fit [0] [[1], [2]] [[true, true]] true none, .fit [0] [[1], [-2]] [[true, true]] true none]).labels = some none := by decide +kernel

end Gtda.Props
