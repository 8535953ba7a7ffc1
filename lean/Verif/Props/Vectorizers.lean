import Verif.Model.Vectorizers
import Verif.Spec.Vectorizers
import Verif.Props.Curves
import Verif.Props.Samplings
import Verif.Props.Raster
import Verif.Props.Silhouette

set_option autoImplicit false
set_option linter.unusedSectionVars false

/-!
# C113: vector representations as estimators
-/

namespace Gtda.Props.Vectorizers
open Gtda.Py Gtda.Parallel Gtda.Diagrams Gtda.Vectorizers Gtda.Spec.Vectorizers

theorem perDim_congr {K Q β : Type} [DecidableEq Q] (F F' : Q → List (List (Pt K Q)) → PyM (List β)) (dims : List Q) (nJobs : Nat) (X : List (List (Pt K Q)))
    (h : ∀ q ∈ dims, ∀ Y, F q Y = F' q Y) : perDim F dims nJobs X = perDim F' dims nJobs X := by
  have : (perDimTasks dims nJobs X.length).mapM (perDimTask F X) = (perDimTasks dims nJobs X.length).mapM (perDimTask F' X) := by
    have hm : ∀ t ∈ perDimTasks dims nJobs X.length, perDimTask F X t = perDimTask F' X t := by
      intro t ht
      unfold perDimTasks at ht
      rw [List.mem_flatMap] at ht
      obtain ⟨q, hq, ht⟩ := ht
      rw [List.mem_map] at ht
      obtain ⟨s, -, rfl⟩ := ht
      unfold perDimTask
      dsimp only
      simp only [h q hq]
    generalize perDimTasks dims nJobs X.length = l at hm
    induction l with
    | nil => rfl
    | cons a t ih =>
      rw [List.mapM_cons, List.mapM_cons, hm a List.mem_cons_self, ih fun t ht => hm t (List.mem_cons_of_mem _ ht)]
  unfold perDim
  rw [this]

section
variable {K Q : Type} [Field K] [LinearOrder K]

theorem check_ok_iff (X : List (List (Pt K Q))) : check X = .ok () ↔ Valid X := by
  have a1 : (X.any fun D => decide (D.length ≠ (X.headD []).length)) = true ↔ ¬ ∀ D ∈ X, ∀ D' ∈ X, D.length = D'.length := by
    rw [List.any_eq_true]
    constructor
    · rintro ⟨D, hD, h⟩ hc
      cases X with
      | nil => simp at hD
      | cons D0 t => exact (of_decide_eq_true h) (hc D hD D0 List.mem_cons_self)
    · intro h
      by_contra hc
      apply h
      intro D hD D' hD'
      have key : ∀ D ∈ X, D.length = (X.headD []).length := by
        intro D hD
        by_contra hne
        exact hc ⟨D, hD, decide_eq_true hne⟩
      rw [key D hD, key D' hD']
  have a2 : (X.any fun D => D.any fun p => decide (p.d < p.b)) = true ↔ ¬ ∀ D ∈ X, ∀ p ∈ D, p.b ≤ p.d := by
    simp only [List.any_eq_true, decide_eq_true_eq]
    push Not
    rfl
  unfold check Valid
  split_ifs with h0 h1 h2
  · exact ⟨fun h => (by cases h), fun h => absurd h0 h.1⟩
  · exact ⟨fun h => (by cases h), fun h => absurd h.2.1 (a1.mp h1)⟩
  · exact ⟨fun h => (by cases h), fun h => absurd h.2.2 (a2.mp h2)⟩
  · exact ⟨fun _ => ⟨h0, not_not.mp fun h => h1 (a1.mpr h), not_not.mp fun h => h2 (a2.mpr h)⟩, fun _ => rfl⟩

theorem observedDims_spec [LinearOrder Q] (X : List (List (Pt K Q))) : DimsOfFirst (observedDims X) X := by
  unfold observedDims DimsOfFirst
  constructor
  · have h1 := List.pairwise_insertionSort (· ≤ ·) ((X.headD []).map fun p => p.q).dedup
    have h2 : (((X.headD []).map fun p => p.q).dedup.insertionSort (· ≤ ·)).Nodup :=
      (List.perm_insertionSort _ _).nodup_iff.mpr (List.nodup_dedup _)
    exact (h1.and h2).imp fun h => lt_of_le_of_ne h.1 h.2
  · intro q
    rw [(List.perm_insertionSort _ _).mem_iff, List.mem_dedup, List.mem_map]
    cases X with
    | nil => simp
    | cons D t => simp

theorem dimsOfFirst_unique [LinearOrder Q] (d d' : List Q) (X : List (List (Pt K Q))) (h : DimsOfFirst d X) (h' : DimsOfFirst d' X) : d = d' := by
  have hp : d.Perm d' := by
    rw [List.perm_ext_iff_of_nodup (h.1.imp fun h => ne_of_lt h) (h'.1.imp fun h => ne_of_lt h)]
    intro q
    rw [h.2, h'.2]
  exact hp.eq_of_pairwise (fun a b _ _ h1 h2 => absurd h1 (lt_asymm h2)) h.1 h'.1

theorem training_dims [LinearOrder Q] (X : List (List (Pt K Q))) (h : Training X) :
    observedDims X ≠ [] ∧ (∀ q ∈ observedDims X, EqualCounts X q) ∧ (∀ q ∈ observedDims X, ∃ D ∈ X, ∃ p ∈ D, p.q = q) := by
  have hd := observedDims_spec X
  obtain ⟨⟨hne, -, -⟩, hT⟩ := h
  cases X with
  | nil => exact absurd rfl hne
  | cons D0 t =>
    obtain ⟨h1, h2⟩ := hT D0 rfl
    obtain ⟨p, hp⟩ := List.exists_mem_of_ne_nil D0 h1
    refine ⟨List.ne_nil_of_mem ((hd.2 p.q).mpr ⟨D0, rfl, p, hp, rfl⟩), ?_, ?_⟩
    · intro q hq
      obtain ⟨D, hD, p, hp, rfl⟩ := (hd.2 q).mp hq
      simp only [List.getElem?_cons_zero, Option.some.injEq] at hD
      subst hD
      exact h2 p hp
    · intro q hq
      obtain ⟨D, hD, p, hp, rfl⟩ := (hd.2 q).mp hq
      simp only [List.getElem?_cons_zero, Option.some.injEq] at hD
      subst hD
      exact ⟨D0, List.mem_cons_self, p, hp, rfl⟩

theorem entryOf_zip {β : Type} [DecidableEq Q] (dims : List Q) (L : List β) (hn : dims.Nodup) (j : Nat) (q : Q) (a : β)
    (h1 : dims[j]? = some q) (h2 : L[j]? = some a) : entryOf (some (dims.zip L)) q = .ok a := by
  have : (dims.zip L).find? (fun x => decide (x.1 = q)) = some (q, a) := by
    induction dims generalizing L j with
    | nil => simp at h1
    | cons d t ih =>
      cases L with
      | nil => simp at h2
      | cons b L =>
        rw [List.nodup_cons] at hn
        cases j with
        | zero =>
          simp only [List.getElem?_cons_zero, Option.some.injEq] at h1 h2
          subst h1 h2
          simp
        | succ j =>
          simp only [List.getElem?_cons_succ] at h1 h2
          rw [List.zip_cons_cons, List.find?_cons_of_neg]
          · exact ih L hn.2 j h1 h2
          · simp only [decide_eq_true_eq]
            rintro rfl
            exact hn.1 (List.mem_of_getElem? h1)
  unfold entryOf
  simp only [this]

theorem linspace_length (lo hi : K) (n : Nat) : (linspace lo hi n).1.length = n := by
  unfold linspace
  split <;> simp

theorem linspace_step (lo hi : K) (n : Nat) : (linspace lo hi n).2 = none ↔ n ≤ 1 := by
  unfold linspace
  split <;> simp_all

theorem mapM_length {α β : Type} (f : α → PyM β) (l : List α) (r : List β) (h : l.mapM f = .ok r) : r.length = l.length := by
  induction l generalizing r with
  | nil => cases h; rfl
  | cons a t ih =>
    rw [List.mapM_cons] at h
    cases ha : f a with
    | error e => rw [ha] at h; cases h
    | ok b =>
      rw [ha] at h
      cases ht : t.mapM f with
      | error e => rw [ht] at h; cases h
      | ok c =>
        rw [ht] at h
        cases h
        simp [ih c ht]

theorem binSampling_lengths [DecidableEq Q] (isPI : Bool) (nBins : Nat) (dims : List Q) (X : List (List (Pt K Q))) (L : List (Axes K))
    (h : binSampling isPI nBins dims X = .ok L) :
    L.length = dims.length ∧ ∀ ax ∈ L, ax.1.1.length = nBins ∧ ax.2.1.length = nBins ∧ (ax.1.2 = none ↔ nBins ≤ 1) ∧ (ax.2.2 = none ↔ nBins ≤ 1) := by
  unfold binSampling at h
  cases hr : dims.mapM (binRange isPI X) with
  | error e => rw [hr] at h; cases h
  | ok r =>
    rw [hr] at h
    simp only [ok_bind] at h
    cases h0 : npMax (r.map fun r => r.2.1) with
    | error e => rw [h0] at h; cases h
    | ok g0 =>
      rw [h0] at h
      simp only [ok_bind] at h
      cases h1 : npMax (r.map fun r => r.2.2) with
      | error e => rw [h1] at h; cases h
      | ok g1 =>
        rw [h1] at h
        simp only [ok_bind, Except.ok.injEq] at h
        subst h
        refine ⟨by rw [List.length_map, mapM_length _ _ _ hr], ?_⟩
        intro ax hax
        rw [List.mem_map] at hax
        obtain ⟨x, -, rfl⟩ := hax
        exact ⟨linspace_length _ _ _, linspace_length _ _ _, linspace_step _ _ _, linspace_step _ _ _⟩

/-- The axes stored for dimension `q` by a successful `fit`. -/
def axesOf [DecidableEq Q] (dims : List Q) (L : List (Axes K)) (q : Q) : Axes K :=
  match entryOf (some (dims.zip L)) q with
  | .ok ax => ax
  | .error _ => (([], none), ([], none))

theorem axesOf_spec [DecidableEq Q] (dims : List Q) (L : List (Axes K)) (hn : dims.Nodup) (hl : L.length = dims.length) (j : Nat) (q : Q) (hq : dims[j]? = some q) :
    L[j]? = some (axesOf dims L q) ∧ entryOf (some (dims.zip L)) q = .ok (axesOf dims L q) := by
  have hj : j < L.length := by rw [hl]; exact (List.getElem?_eq_some_iff.mp hq).1
  have h2 : L[j]? = some L[j] := List.getElem?_eq_getElem hj
  have := entryOf_zip dims L hn j q _ hq h2
  unfold axesOf
  rw [this]
  exact ⟨h2, rfl⟩

theorem fit_success [LinearOrder Q] (kind : Kind) (X : List (List (Pt K Q))) (e : Est K Q) (h : (fit kind X e).2 = .ok ()) :
    Valid X ∧ validate kind e.params = .ok () ∧ ∃ L, binSampling (decide (kind = .image)) e.params.nBins (observedDims X) X = .ok L ∧
      (fit kind X e).1 = ⟨e.params, some (observedDims X), some ((observedDims X).zip L),
        some ((observedDims X).zip (L.map fun ax => ax.2.1.map (effectiveWeight e.params)))⟩ := by
  unfold fit at h ⊢
  cases hc : check X with
  | error er => rw [hc] at h; cases h
  | ok u =>
    rw [hc] at h
    dsimp only at h ⊢
    cases hv : validate kind e.params with
    | error er => rw [hv] at h; cases h
    | ok u =>
      rw [hv] at h
      dsimp only at h ⊢
      cases hb : binSampling (decide (kind = .image)) e.params.nBins (observedDims X) X with
      | error er => rw [hb] at h; cases h
      | ok L => exact ⟨(check_ok_iff X).mp hc, rfl, L, rfl, rfl⟩

theorem fit_training [LinearOrder Q] [IsStrictOrderedRing K] (kind : Kind) (X : List (List (Pt K Q))) (e : Est K Q) (hT : Training X) (hv : validate kind e.params = .ok ()) :
    (fit kind X e).2 = .ok () := by
  obtain ⟨h1, h2, h3⟩ := training_dims X hT
  obtain ⟨L, -, -, hL, -⟩ := binSampling_spec (decide (kind = .image)) e.params.nBins (observedDims X) X h1 h2 h3 hT.1.2.2
  unfold fit
  rw [(check_ok_iff X).mpr hT.1, hv]
  dsimp only
  rw [hL]

theorem fits_eq {β : Type} (n m n' m' : Nat) (R : List (List (List (List β)))) (h : ∀ I ∈ R.flatten, I.length = n' ∧ ∀ r ∈ I, r.length = m') :
    fits n m R = if R.flatten.length * (n' * m') = R.flatten.length * (n * m) then .ok R else .error .valueError := by
  have : (R.flatten.flatten.map List.length).sum = R.flatten.length * (n' * m') := by
    generalize R.flatten = items at h
    induction items with
    | nil => simp
    | cons I t ih =>
      obtain ⟨h1, h2⟩ := h I List.mem_cons_self
      have hI : (I.map List.length).sum = n' * m' := by
        rw [← h1]
        clear h ih h1
        induction I with
        | nil => simp
        | cons r t ih => simp [h2 r List.mem_cons_self, ih fun r hr => h2 r (List.mem_cons_of_mem _ hr), Nat.succ_mul, Nat.add_comm]
      rw [List.flatten_cons, List.map_append, List.sum_append, hI, ih fun I hI => h I (List.mem_cons_of_mem _ hI), List.length_cons, Nat.succ_mul, Nat.add_comm]
  unfold fits
  dsimp only
  rw [this]

end

end Gtda.Props.Vectorizers

namespace Gtda.Props
open Gtda.Py Gtda.Parallel Gtda.Diagrams Gtda.Vectorizers Gtda.Spec.Vectorizers Gtda.Spec.Raster
open Vectorizers

section
variable {K Q : Type} [Field K] [LinearOrder K] [IsStrictOrderedRing K] [FloorRing K] [LinearOrder Q]

/-- What `fit` stores (all classes but `PersistenceImage`). -/
theorem fitted_grid (kind : Kind) (hk : kind ≠ .image) (e : Est K Q) (X : List (List (Pt K Q))) (hb : 2 ≤ e.params.nBins) (hT : Training X) (hv : validate kind e.params = .ok ()) :
    (fit kind X e).2 = .ok () ∧ ∃ (dims : List Q) (ax : Q → Axes K) (z : List (Q × Axes K)) (w : Option (List (Q × List K))), DimsOfFirst dims X ∧ dims ≠ [] ∧
      (fit kind X e).1 = ⟨e.params, some dims, some z, w⟩ ∧
      ∀ q ∈ dims, entryOf (some z) q = .ok (ax q) ∧ ∃ step, (ax q).1.2 = some step ∧ Grid X dims q e.params.nBins (ax q).1.1 step := by
  have hok := fit_training kind X e hT hv
  obtain ⟨h1, h2, h3⟩ := training_dims X hT
  obtain ⟨-, -, L, hL, hfit⟩ := fit_success kind X e hok
  have hds := observedDims_spec X
  have hnd : (observedDims X).Nodup := hds.1.imp fun h => ne_of_lt h
  obtain ⟨hlen, -⟩ := binSampling_lengths _ _ _ _ _ hL
  obtain ⟨L', hL', hgrid⟩ := C32_samplings e.params.nBins hb (observedDims X) X h1 h2 h3 hT.1.2.2
  have e1 : (decide (kind = .image)) = false := decide_eq_false hk
  rw [e1, hL', Except.ok.injEq] at hL
  subst hL
  refine ⟨hok, observedDims X, fun q => axesOf (observedDims X) L' q, _, _, hds, h1, hfit, ?_⟩
  intro q hq
  obtain ⟨j, hj⟩ := List.mem_iff_getElem?.mp hq
  obtain ⟨s, step, rest, lo, hi, last, g1, g2, g3, g4, g5, g6, g7, -⟩ := hgrid j q hj
  obtain ⟨a1, a2⟩ := axesOf_spec _ _ hnd hlen j q hj
  refine ⟨a2, ?_⟩
  rw [a1, Option.some.injEq] at g1
  dsimp only
  rw [g1]
  exact ⟨step, rfl, lo, hi, last, g2, g3, g4, g5, g6, g7⟩

/-- **C113**, Betti curves: whatever happened to the object before, `fit` on a training collection succeeds, and `transform` afterwards counts, for every valid collection and number of jobs, the
points alive at the sampled values of each homology dimension of the first training diagram. -/
theorem C113_betti (E : Engine K) (e : Est K Q) (X : List (List (Pt K Q))) (hb : 2 ≤ e.params.nBins) (hT : Training X) :
    (fit .betti X e).2 = .ok () ∧ ∃ (dims : List Q) (s : Q → List K), DimsOfFirst dims X ∧ (∀ q ∈ dims, ∃ step, Grid X dims q e.params.nBins (s q) step) ∧
      ∀ nJobs, 1 ≤ nJobs → ∀ X', Valid X' → (∀ q ∈ dims, EqualCounts X' q) →
        ∃ R, transform E .betti nJobs X' (fit .betti X e).1 = .ok (.counts R) ∧ R.length = X'.length ∧
          ∀ (i j t : Nat) D q x, X'[i]? = some D → dims[j]? = some q → (s q)[t]? = some x → entry3 R i j t = some (aliveAt D q x) := by
  have hv : validate .betti e.params = .ok () := by simp [validate]; omega
  obtain ⟨hok, dims, ax, z, w, hds, hne, hfit, hax⟩ := fitted_grid .betti (by decide) e X hb hT hv
  refine ⟨hok, dims, fun q => (ax q).1.1, hds, fun q hq => ?_, ?_⟩
  · obtain ⟨-, step, -, h⟩ := hax q hq
    exact ⟨step, h⟩
  · intro nJobs hn X' hX' hE
    obtain ⟨R, hR, hl, hent⟩ := C27_betti_curve dims (fun q => (ax q).1.1) nJobs X' hn hne hX'.1 hE
    refine ⟨R, ?_, hl, hent⟩
    rw [hfit]
    unfold transform
    dsimp only
    rw [(check_ok_iff X').mpr hX']
    simp only [ok_bind]
    rw [perDim_congr _ (fun q Y => .ok (bettiCurves Y (ax q).1.1)) _ _ _ ?_]
    · unfold bettiTransform at hR
      rw [hR]
      rfl
    · intro q hq Y
      rw [(hax q hq).1]
      rfl

/-- `PersistenceLandscape.transform` of an object whose stored grids have `m` values. -/
theorem landscape_eq (E : Engine K) (P : Params K) (dims : List Q) (ax : Q → Axes K) (z : List (Q × Axes K)) (w : Option (List (Q × List K))) (m : Nat) (hne : dims ≠ [])
    (hax : ∀ q ∈ dims, entryOf (some z) q = .ok (ax q)) (hm : ∀ q ∈ dims, (ax q).1.1.length = m) (hl : 1 ≤ P.nLayers) (nJobs : Nat) (hn : 1 ≤ nJobs) (X : List (List (Pt K Q)))
    (hX : Valid X) (hE : ∀ q ∈ dims, EqualCounts X q) :
    transform E .landscape nJobs X ⟨P, some dims, some z, w⟩ =
      if m = P.nBins then (landscapeTransform dims (fun q => (ax q).1.1) P.nLayers nJobs X).map .layers else .error .valueError := by
  unfold transform
  dsimp only
  rw [(check_ok_iff X).mpr hX]
  simp only [ok_bind]
  have hper : perDim (fun q Y => .ok (landscapes Y (ax q).1.1 P.nLayers)) dims nJobs X =
      .ok (X.map fun D => dims.map fun q => (List.range P.nLayers).map fun k => (ax q).1.1.map fun s => layerAt (pointsIn D q) k s) := by
    rw [perDim_eq _ (fun q D => (List.range P.nLayers).map fun k => (ax q).1.1.map fun s => layerAt D k s) dims nJobs hn hne X hX.1 hE]
    intro q hq Y hY hsub
    obtain ⟨Y0, hY0⟩ := List.exists_mem_of_ne_nil Y hY
    rw [landscapes_eq _ _ _ (pointsIn Y0 q).length (by
      intro D hD
      rw [List.mem_map] at hD
      obtain ⟨D, hD, rfl⟩ := hD
      exact hE q hq D (hsub D hD) Y0 (hsub Y0 hY0)), List.map_map]
    rfl
  rw [perDim_congr _ (fun q Y => .ok (landscapes Y (ax q).1.1 P.nLayers)) _ _ _ (fun q hq Y => by rw [hax q hq]; rfl)]
  unfold landscapeTransform
  rw [hper]
  simp only [ok_bind]
  rw [fits_eq P.nLayers P.nBins P.nLayers m]
  · have hpos : 0 < (X.map fun D => dims.map fun q => (List.range P.nLayers).map fun k => (ax q).1.1.map fun s => layerAt (pointsIn D q) k s).flatten.length := by
      apply List.length_pos_of_ne_nil
      obtain ⟨D, hD⟩ := List.exists_mem_of_ne_nil X hX.1
      obtain ⟨q, hq⟩ := List.exists_mem_of_ne_nil dims hne
      apply List.ne_nil_of_mem (a := (List.range P.nLayers).map fun k => (ax q).1.1.map fun s => layerAt (pointsIn D q) k s)
      rw [List.mem_flatten]
      exact ⟨_, List.mem_map_of_mem hD, List.mem_map_of_mem hq⟩
    by_cases h : m = P.nBins
    · rw [if_pos h, if_pos (by rw [h])]
      rfl
    · rw [if_neg h, if_neg]
      · rfl
      · intro hc
        exact h (Nat.eq_of_mul_eq_mul_left (by omega) (Nat.eq_of_mul_eq_mul_left hpos hc))
  · intro I hI
    rw [List.mem_flatten] at hI
    obtain ⟨r, hr, hI⟩ := hI
    rw [List.mem_map] at hr
    obtain ⟨D, hD, rfl⟩ := hr
    rw [List.mem_map] at hI
    obtain ⟨q, hq, rfl⟩ := hI
    refine ⟨by simp, ?_⟩
    intro r hr
    rw [List.mem_map] at hr
    obtain ⟨k, -, rfl⟩ := hr
    rw [List.length_map, hm q hq]

theorem grid_length {X : List (List (Pt K Q))} {dims : List Q} {q : Q} {n : Nat} {s : List K} {step : K} (h : Grid X dims q n s step) : s.length = n := by
  obtain ⟨_, _, _, _, _, h, _⟩ := h
  exact h.1

/-- **C113**, landscapes: likewise. Row `j * n_layers + k` of a diagram holds the `(k+1)`-th largest value of the tent functions in the `j`-th dimension. -/
theorem C113_landscape (E : Engine K) (e : Est K Q) (X : List (List (Pt K Q))) (hb : 2 ≤ e.params.nBins) (hl : 1 ≤ e.params.nLayers) (hT : Training X) :
    (fit .landscape X e).2 = .ok () ∧ ∃ (dims : List Q) (s : Q → List K), DimsOfFirst dims X ∧ (∀ q ∈ dims, ∃ step, Grid X dims q e.params.nBins (s q) step) ∧
      ∀ nJobs, 1 ≤ nJobs → ∀ X', Valid X' → (∀ q ∈ dims, EqualCounts X' q) →
        ∃ R, transform E .landscape nJobs X' (fit .landscape X e).1 = .ok (.layers R) ∧ R.length = X'.length ∧
          (∀ (i : Nat) r, R[i]? = some r → r.length = dims.length * e.params.nLayers) ∧
          ∀ (i j k t : Nat) D q x, X'[i]? = some D → dims[j]? = some q → k < e.params.nLayers → (s q)[t]? = some x →
            ∃ v, entry3 R i (j * e.params.nLayers + k) t = some v ∧ (k < (pointsIn D q).length → IsNthLargest (tents D q x) k v) ∧
              ((pointsIn D q).length ≤ k → v = 0) := by
  have hv : validate .landscape e.params = .ok () := by
    unfold validate
    rw [if_neg (by omega)]
    exact if_neg (by omega)
  obtain ⟨hok, dims, ax, z, w, hds, hne, hfit, hax⟩ := fitted_grid .landscape (by decide) e X hb hT hv
  refine ⟨hok, dims, fun q => (ax q).1.1, hds, fun q hq => ?_, ?_⟩
  · obtain ⟨-, step, -, h⟩ := hax q hq
    exact ⟨step, h⟩
  · intro nJobs hn X' hX' hE
    obtain ⟨R, hR, h1, h2, h3⟩ := C28_landscape dims (fun q => (ax q).1.1) e.params.nLayers nJobs X' hn hne hX'.1 hE
    refine ⟨R, ?_, h1, h2, h3⟩
    rw [hfit, landscape_eq E e.params dims ax z w e.params.nBins hne (fun q hq => (hax q hq).1) (fun q hq => by
      obtain ⟨-, step, -, h⟩ := hax q hq
      exact grid_length h) hl nJobs hn X' hX' hE, if_pos rfl, hR]
    rfl

/-- The final `reshape` of image-valued results. -/
theorem images_eq {β : Type} (F : Q → List (List (Pt K Q)) → PyM (List (List (List β)))) (g : Q → List (Pt K Q) → List (List β)) (dims : List Q) (m n nJobs : Nat) (X : List (List (Pt K Q)))
    (hn : 1 ≤ nJobs) (hne : dims ≠ []) (hX : X ≠ []) (hE : ∀ q ∈ dims, EqualCounts X q)
    (hF : ∀ q ∈ dims, ∀ Y : List (List (Pt K Q)), Y ≠ [] → (∀ D ∈ Y, D ∈ X) → F q (Y.map fun D => pointsIn D q) = .ok (Y.map fun D => g q (pointsIn D q)))
    (hg : ∀ q ∈ dims, ∀ D ∈ X, SquareImage m (g q (pointsIn D q))) :
    (perDim F dims nJobs X >>= fits n n) = if m = n then .ok (X.map fun D => dims.map fun q => g q (pointsIn D q)) else .error .valueError := by
  rw [perDim_eq F g dims nJobs hn hne X hX hE hF]
  simp only [ok_bind]
  rw [fits_eq n n m m]
  · have hpos : 0 < (X.map fun D => dims.map fun q => g q (pointsIn D q)).flatten.length := by
      apply List.length_pos_of_ne_nil
      obtain ⟨D, hD⟩ := List.exists_mem_of_ne_nil X hX
      obtain ⟨q, hq⟩ := List.exists_mem_of_ne_nil dims hne
      apply List.ne_nil_of_mem (a := g q (pointsIn D q))
      rw [List.mem_flatten]
      exact ⟨_, List.mem_map_of_mem hD, List.mem_map_of_mem hq⟩
    by_cases h : m = n
    · rw [if_pos h, if_pos (by rw [h])]
    · rw [if_neg h, if_neg]
      intro hc
      exact h (Nat.mul_self_inj.mp (Nat.eq_of_mul_eq_mul_left hpos hc))
  · intro I hI
    rw [List.mem_flatten] at hI
    obtain ⟨r, hr, hI⟩ := hI
    rw [List.mem_map] at hr
    obtain ⟨D, hD, rfl⟩ := hr
    rw [List.mem_map] at hI
    obtain ⟨q, hq, rfl⟩ := hI
    exact hg q hq D hD

theorem squareImage_noNaN {n : Nat} {H : List (List K)} (h : SquareImage n H) : SquareImage n (noNaN H) := by
  unfold noNaN
  refine ⟨by simp [h.1], ?_⟩
  intro r hr
  rw [List.mem_map] at hr
  obtain ⟨r, hr, rfl⟩ := hr
  rw [List.length_map, h.2 r hr]

/-- The pixel value of the standard deviation, gtda/diagrams/_metrics.py:100-101. -/
def pixelSigma (sigma step : K) (n : Nat) : K := min (sigma / step) (10 ^ 5 * (n : K))

theorem heatItem_ok (E : Engine K) (hG : KeepsSize E) (sigma : K) (s : List K) (step : K) (n : Nat) (hb : 2 ≤ n) (lo hi : K) (hs : 0 ≤ step) (h : EquallySpaced s n lo hi step) (D : List (Pt K Q)) :
    ∃ H, heatOne (E.smooth (pixelSigma sigma step n) (pixelSigma sigma step n)) s step D = .ok H ∧ heatItem E sigma (s, some step) D = .ok (noNaN H) ∧ SquareImage n (noNaN H) := by
  obtain ⟨H, hH, hsq, -⟩ := C30_heat_antisymmetric (E.smooth (pixelSigma sigma step n) (pixelSigma sigma step n)) s n lo hi step hb hs h (hG _ _ n) D
  refine ⟨H, hH, ?_, squareImage_noNaN hsq⟩
  unfold heatItem
  dsimp only
  rw [h.1]
  unfold pixelSigma at hH
  rw [hH]
  rfl

theorem heat_eq (E : Engine K) (hG : KeepsSize E) (P : Params K) (dims : List Q) (ax : Q → Axes K) (z : List (Q × Axes K)) (w : Option (List (Q × List K))) (n : Nat) (hb : 2 ≤ n) (hne : dims ≠ [])
    (step : Q → K) (hax : ∀ q ∈ dims, entryOf (some z) q = .ok (ax q) ∧ (ax q).1.2 = some (step q) ∧ 0 ≤ step q ∧ ∃ lo hi, EquallySpaced (ax q).1.1 n lo hi (step q))
    (nJobs : Nat) (hn : 1 ≤ nJobs) (X : List (List (Pt K Q))) (hX : Valid X) (hE : ∀ q ∈ dims, EqualCounts X q) :
    ∃ g : Q → List (Pt K Q) → List (List K), (∀ q ∈ dims, ∀ D : List (Pt K Q), heatOne (E.smooth (pixelSigma P.sigma (step q) n) (pixelSigma P.sigma (step q) n)) (ax q).1.1 (step q) D = .ok (g q D)) ∧
      transform E .heat nJobs X ⟨P, some dims, some z, w⟩ =
        if n = P.nBins then .ok (.images (X.map fun D => dims.map fun q => noNaN (g q (pointsIn D q)))) else .error .valueError := by
  have hex : ∀ q ∈ dims, ∀ D : List (Pt K Q), ∃ H, heatOne (E.smooth (pixelSigma P.sigma (step q) n) (pixelSigma P.sigma (step q) n)) (ax q).1.1 (step q) D = .ok H ∧
      heatItem E P.sigma (ax q).1 D = .ok (noNaN H) ∧ SquareImage n (noNaN H) := by
    intro q hq D
    obtain ⟨-, h2, h3, lo, hi, h4⟩ := hax q hq
    have : (ax q).1 = ((ax q).1.1, some (step q)) := by rw [← h2]
    rw [this]
    exact heatItem_ok E hG P.sigma _ _ n hb lo hi h3 h4 D
  let g : Q → List (Pt K Q) → List (List K) := fun q D =>
    match heatOne (E.smooth (pixelSigma P.sigma (step q) n) (pixelSigma P.sigma (step q) n)) (ax q).1.1 (step q) D with | .ok H => H | .error _ => []
  have hg : ∀ q ∈ dims, ∀ D : List (Pt K Q), heatOne (E.smooth (pixelSigma P.sigma (step q) n) (pixelSigma P.sigma (step q) n)) (ax q).1.1 (step q) D = .ok (g q D) := by
    intro q hq D
    obtain ⟨H, hH, -⟩ := hex q hq D
    simp only [g, hH]
  refine ⟨g, hg, ?_⟩
  have hit : ∀ q ∈ dims, ∀ D : List (Pt K Q), heatItem E P.sigma (ax q).1 D = .ok (noNaN (g q D)) ∧ SquareImage n (noNaN (g q D)) := by
    intro q hq D
    obtain ⟨H, hH, h2, h3⟩ := hex q hq D
    rw [hg q hq D, Except.ok.injEq] at hH
    rw [hH]
    exact ⟨h2, h3⟩
  unfold transform
  dsimp only
  rw [(check_ok_iff X).mpr hX]
  simp only [ok_bind]
  rw [← bind_assoc, perDim_congr _ (fun q Y => Y.mapM (heatItem E P.sigma (ax q).1)) _ _ _ (fun q hq Y => by rw [(hax q hq).1]; rfl),
    images_eq _ (fun q D => noNaN (g q D)) dims n P.nBins nJobs X hn hne hX.1 hE ?_ (fun q hq D _ => (hit q hq _).2)]
  · split <;> rfl
  · intro q hq Y _ _
    rw [mapM_ok (g := fun D => noNaN (g q D)) (fun D _ => (hit q hq D).1), List.map_map]
    rfl

/-- **C113**, heat kernels: likewise. The image of a diagram in a homology dimension is the heat kernel image (described by C30) for the stored grid and the current `sigma`. -/
theorem C113_heat (E : Engine K) (hG : KeepsSize E) (e : Est K Q) (X : List (List (Pt K Q))) (hb : 2 ≤ e.params.nBins) (hs : 0 < e.params.sigma) (hT : Training X) :
    (fit .heat X e).2 = .ok () ∧ ∃ (dims : List Q) (s : Q → List K) (step : Q → K), DimsOfFirst dims X ∧ (∀ q ∈ dims, Grid X dims q e.params.nBins (s q) (step q)) ∧
      ∀ nJobs, 1 ≤ nJobs → ∀ X', Valid X' → (∀ q ∈ dims, EqualCounts X' q) →
        ∃ R, transform E .heat nJobs X' (fit .heat X e).1 = .ok (.images R) ∧ R.length = X'.length ∧
          ∀ (i j : Nat) D q, X'[i]? = some D → dims[j]? = some q →
            let sp := min (e.params.sigma / step q) (10 ^ 5 * (e.params.nBins : K))
            ∃ H, IsHeatImage (E.smooth sp sp) (s q) (step q) (pointsIn D q) H ∧ entry2 R i j = some (H.map fun r => r.map some) := by
  have hv : validate .heat e.params = .ok () := by
    unfold validate
    rw [if_neg (by omega)]
    exact if_neg (not_le.mpr hs)
  obtain ⟨hok, dims, ax, z, w, hds, hne, hfit, hax⟩ := fitted_grid .heat (by decide) e X hb hT hv
  refine ⟨hok, dims, fun q => (ax q).1.1, fun q => ((ax q).1.2).getD 0, hds, fun q hq => ?_, ?_⟩
  · obtain ⟨-, step, h1, h⟩ := hax q hq
    dsimp only
    rw [h1]
    exact h
  · intro nJobs hn X' hX' hE
    obtain ⟨g, hg, htr⟩ := heat_eq E hG e.params dims ax z w e.params.nBins hb hne (fun q => ((ax q).1.2).getD 0) (fun q hq => by
      obtain ⟨h0, step, h1, lo, hi, last, h2, h3, h4, h5, h6⟩ := hax q hq
      rw [h1]
      exact ⟨h0, rfl, h5, lo, last, h4⟩) nJobs hn X' hX' hE
    rw [if_pos rfl] at htr
    refine ⟨_, by rw [hfit]; exact htr, by simp, ?_⟩
    intro i j D q h1 h2
    have hq := List.mem_of_getElem? h2
    refine ⟨_, ?_, by simp [entry2, h1, h2, noNaN]; rfl⟩
    obtain ⟨h0, step, h3, lo, hi, last, h4, h5, h6, h7, h8⟩ := hax q hq
    obtain ⟨H, hH, him⟩ := heatOne_image (E.smooth (pixelSigma e.params.sigma step e.params.nBins) (pixelSigma e.params.sigma step e.params.nBins)) (ax q).1.1 e.params.nBins lo last step hb h7 h6
      (hG _ _ _) (pointsIn D q)
    have := hg q hq (pointsIn D q)
    simp only [h3, Option.getD_some] at this ⊢
    rw [hH, Except.ok.injEq] at this
    rw [← this]
    exact him

theorem spaced_step_nonneg (s : List K) (n : Nat) (lo hi step : K) (hn : 2 ≤ n) (h : EquallySpaced s n lo hi step) (hle : lo ≤ hi) : 0 ≤ step := by
  have hl := equallySpaced_last s n lo hi step (by omega) h
  have hpos : (0 : K) < ((n - 1 : Nat) : K) := by rw [Nat.cast_pos]; omega
  by_contra hc
  push Not at hc
  have : ((n - 1 : Nat) : K) * step < 0 := mul_neg_of_pos_of_neg hpos hc
  linarith

/-- What `PersistenceImage.fit` stores. -/
theorem fitted_image (e : Est K Q) (X : List (List (Pt K Q))) (hb : 2 ≤ e.params.nBins) (hT : Training X) (hv : validate .image e.params = .ok ()) :
    (fit .image X e).2 = .ok () ∧ ∃ (dims : List Q) (ax : Q → Axes K) (z : List (Q × Axes K)) (w : List (Q × List K)), DimsOfFirst dims X ∧ dims ≠ [] ∧
      (fit .image X e).1 = ⟨e.params, some dims, some z, some w⟩ ∧
      ∀ q ∈ dims, entryOf (some z) q = .ok (ax q) ∧ entryOf (some w) q = .ok ((ax q).2.1.map (effectiveWeight e.params)) ∧
        ∃ step₀ step₁, ax q = (((ax q).1.1, some step₀), ((ax q).2.1, some step₁)) ∧
          BirthGrid X dims q e.params.nBins (ax q).1.1 step₀ ∧ LifetimeGrid X dims q e.params.nBins (ax q).2.1 step₁ := by
  have hok := fit_training .image X e hT hv
  obtain ⟨h1, h2, h3⟩ := training_dims X hT
  obtain ⟨-, -, L, hL, hfit⟩ := fit_success .image X e hok
  have hds := observedDims_spec X
  have hnd : (observedDims X).Nodup := hds.1.imp fun h => ne_of_lt h
  obtain ⟨hlen, -⟩ := binSampling_lengths _ _ _ _ _ hL
  obtain ⟨L', hL', hgrid⟩ := C32_samplings_persistence_image e.params.nBins hb (observedDims X) X h1 h2 h3 hT.1.2.2
  have e1 : (decide (Kind.image = .image)) = true := rfl
  rw [e1, hL', Except.ok.injEq] at hL
  subst hL
  refine ⟨hok, observedDims X, fun q => axesOf (observedDims X) L' q, _, _, hds, h1, hfit, ?_⟩
  intro q hq
  obtain ⟨j, hj⟩ := List.mem_iff_getElem?.mp hq
  obtain ⟨s₀, step₀, s₁, step₁, lo₀, hi₀, last₀, lo₁, hi₁, last₁, g1, g2, g3, g4, g5, g6, g7, g8, g9, g10, g11, g12, g13⟩ := hgrid j q hj
  obtain ⟨a1, a2⟩ := axesOf_spec _ _ hnd hlen j q hj
  refine ⟨a2, ?_, ?_⟩
  · apply entryOf_zip _ _ hnd j q _ hj
    rw [List.getElem?_map, a1]
    rfl
  · rw [a1, Option.some.injEq] at g1
    dsimp only
    rw [g1]
    exact ⟨step₀, step₁, rfl,
      ⟨lo₀, hi₀, last₀, g2, g3, g6, spaced_step_nonneg _ _ _ _ _ hb g6 (g12 lo₀ g2.1).2, g8, g10⟩,
      ⟨lo₁, hi₁, last₁, g4, g5, g7, spaced_step_nonneg _ _ _ _ _ hb g7 (g13 lo₁ g4.1).2, g9, g11⟩⟩

theorem imageOne_fitted (G : List (List K) → List (List K)) (n : Nat) (hG : ∀ I, SquareImage n I → SquareImage n (G I)) (s₀ s₁ : List K) (step₀ step₁ lo₀ hi₀ lo₁ hi₁ : K) (hb : 2 ≤ n)
    (hs₀ : 0 ≤ step₀) (hs₁ : 0 ≤ step₁) (h₀ : EquallySpaced s₀ n lo₀ hi₀ step₀) (h₁ : EquallySpaced s₁ n lo₁ hi₁ step₁) (w : List K) (hw : w.length = n) (D : List (Pt K Q)) :
    ∃ H, imageOne G s₀ s₁ step₀ step₁ w D = .ok H ∧ SquareImage n H := by
  have : Inhabited K := ⟨0⟩
  unfold imageOne
  dsimp only
  split
  · exact ⟨_, rfl, by rw [h₀.1]; exact squareImage_image2 n _⟩
  · rename_i hne
    rw [not_or] at hne
    rw [imageRaster_eq s₀ s₁ n _ _ _ _ _ _ (by omega) (lt_of_le_of_ne hs₀ (Ne.symm hne.1)) (lt_of_le_of_ne hs₁ (Ne.symm hne.2)) h₀ h₁ w hw]
    refine ⟨_, rfl, ?_⟩
    obtain ⟨f, hf⟩ := (squareImage_iff n _).mp (hG _ (squareImage_image2 n fun (i j : Nat) =>
      ((imageCoords lo₀ hi₀ step₀ lo₁ hi₁ step₁ D).count ((i : Int), (j : Int)) : K) * (w[j]?).getD 0))
    rw [hf, h₀.1, rot90_image2, map_image2]
    exact squareImage_image2 n _

theorem image_eq (E : Engine K) (hG : KeepsSize E) (P : Params K) (dims : List Q) (ax : Q → Axes K) (z : List (Q × Axes K)) (w : List (Q × List K)) (wt : Q → List K) (n : Nat) (hb : 2 ≤ n) (hne : dims ≠ [])
    (step₀ step₁ : Q → K) (hax : ∀ q ∈ dims, entryOf (some z) q = .ok (ax q) ∧ entryOf (some w) q = .ok (wt q) ∧ (wt q).length = n ∧
      ax q = (((ax q).1.1, some (step₀ q)), ((ax q).2.1, some (step₁ q))) ∧ 0 ≤ step₀ q ∧ 0 ≤ step₁ q ∧
      (∃ lo hi, EquallySpaced (ax q).1.1 n lo hi (step₀ q)) ∧ ∃ lo hi, EquallySpaced (ax q).2.1 n lo hi (step₁ q))
    (nJobs : Nat) (hn : 1 ≤ nJobs) (X : List (List (Pt K Q))) (hX : Valid X) (hE : ∀ q ∈ dims, EqualCounts X q) :
    ∃ g : Q → List (Pt K Q) → List (List K), (∀ q ∈ dims, ∀ D : List (Pt K Q),
        imageOne (E.smooth (P.sigma / step₀ q) (P.sigma / step₁ q)) (ax q).1.1 (ax q).2.1 (step₀ q) (step₁ q) (wt q) D = .ok (g q D)) ∧
      transform E .image nJobs X ⟨P, some dims, some z, some w⟩ =
        if n = P.nBins then .ok (.images (X.map fun D => dims.map fun q => noNaN (g q (pointsIn D q)))) else .error .valueError := by
  have hex : ∀ q ∈ dims, ∀ D : List (Pt K Q), ∃ H,
      imageOne (E.smooth (P.sigma / step₀ q) (P.sigma / step₁ q)) (ax q).1.1 (ax q).2.1 (step₀ q) (step₁ q) (wt q) D = .ok H ∧ SquareImage n H := by
    intro q hq D
    obtain ⟨-, -, h3, -, h5, h6, ⟨lo, hi, h7⟩, lo', hi', h8⟩ := hax q hq
    exact imageOne_fitted _ n (hG _ _ n) _ _ _ _ lo hi lo' hi' hb h5 h6 h7 h8 _ h3 D
  let g : Q → List (Pt K Q) → List (List K) := fun q D =>
    match imageOne (E.smooth (P.sigma / step₀ q) (P.sigma / step₁ q)) (ax q).1.1 (ax q).2.1 (step₀ q) (step₁ q) (wt q) D with | .ok H => H | .error _ => []
  have hg : ∀ q ∈ dims, ∀ D : List (Pt K Q), imageOne (E.smooth (P.sigma / step₀ q) (P.sigma / step₁ q)) (ax q).1.1 (ax q).2.1 (step₀ q) (step₁ q) (wt q) D = .ok (g q D) := by
    intro q hq D
    obtain ⟨H, hH, -⟩ := hex q hq D
    simp only [g, hH]
  refine ⟨g, hg, ?_⟩
  have hit : ∀ q ∈ dims, ∀ D : List (Pt K Q), imageItem E P.sigma (ax q) (wt q) D = .ok (noNaN (g q D)) ∧ SquareImage n (noNaN (g q D)) := by
    intro q hq D
    obtain ⟨H, hH, h3⟩ := hex q hq D
    rw [hg q hq D, Except.ok.injEq] at hH
    rw [hH]
    refine ⟨?_, squareImage_noNaN h3⟩
    obtain ⟨-, -, -, h4, -⟩ := hax q hq
    rw [h4]
    unfold imageItem
    dsimp only
    rw [hg q hq D, hH]
    rfl
  unfold transform
  dsimp only
  rw [(check_ok_iff X).mpr hX]
  simp only [ok_bind]
  rw [← bind_assoc, perDim_congr _ (fun q Y => Y.mapM (imageItem E P.sigma (ax q) (wt q))) _ _ _ (fun q hq Y => by rw [(hax q hq).1, (hax q hq).2.1]; rfl),
    images_eq _ (fun q D => noNaN (g q D)) dims n P.nBins nJobs X hn hne hX.1 hE ?_ (fun q hq D _ => (hit q hq _).2)]
  · split <;> rfl
  · intro q hq Y _ _
    rw [mapM_ok (g := fun D => noNaN (g q D)) (fun D _ => (hit q hq D).1), List.map_map]
    rfl

/-- **C113**, persistence images: likewise. The image of a diagram in a homology dimension is the persistence image (described by C31) for the stored grids of births and lifetimes, the weights computed
by `fit` (`1` without weight function) and the current `sigma`. -/
theorem C113_image (E : Engine K) (hG : KeepsSize E) (e : Est K Q) (X : List (List (Pt K Q))) (hb : 2 ≤ e.params.nBins) (hs : 0 < e.params.sigma) (hT : Training X) :
    (fit .image X e).2 = .ok () ∧ ∃ (dims : List Q) (s₀ s₁ : Q → List K) (step₀ step₁ : Q → K), DimsOfFirst dims X ∧
      (∀ q ∈ dims, BirthGrid X dims q e.params.nBins (s₀ q) (step₀ q) ∧ LifetimeGrid X dims q e.params.nBins (s₁ q) (step₁ q)) ∧
      ∀ nJobs, 1 ≤ nJobs → ∀ X', Valid X' → (∀ q ∈ dims, EqualCounts X' q) →
        ∃ R, transform E .image nJobs X' (fit .image X e).1 = .ok (.images R) ∧ R.length = X'.length ∧
          ∀ (i j : Nat) D q, X'[i]? = some D → dims[j]? = some q →
            ∃ H, IsPersistenceImage (E.smooth (e.params.sigma / step₀ q) (e.params.sigma / step₁ q)) (fun x => match e.params.weight with | none => 1 | some w => w x)
              (s₀ q) (s₁ q) (step₀ q) (step₁ q) (pointsIn D q) H ∧ entry2 R i j = some (H.map fun r => r.map some) := by
  have hv : validate .image e.params = .ok () := by
    unfold validate
    rw [if_neg (by omega)]
    exact if_neg (not_le.mpr hs)
  obtain ⟨hok, dims, ax, z, w, hds, hne, hfit, hax⟩ := fitted_image e X hb hT hv
  have hw : effectiveWeight e.params = fun x => match e.params.weight with | none => 1 | some w => w x := by
    unfold effectiveWeight
    cases e.params.weight <;> rfl
  refine ⟨hok, dims, fun q => (ax q).1.1, fun q => (ax q).2.1, fun q => ((ax q).1.2).getD 0, fun q => ((ax q).2.2).getD 0, hds, fun q hq => ?_, ?_⟩
  · obtain ⟨-, -, st₀, st₁, h1, h2, h3⟩ := hax q hq
    beta_reduce
    rw [h1]
    exact ⟨h2, h3⟩
  · intro nJobs hn X' hX' hE
    obtain ⟨g, hg, htr⟩ := image_eq E hG e.params dims ax z w (fun q => (ax q).2.1.map (effectiveWeight e.params)) e.params.nBins hb hne
      (fun q => ((ax q).1.2).getD 0) (fun q => ((ax q).2.2).getD 0) (fun q hq => by
      obtain ⟨h0, h0', st₀, st₁, h1, ⟨lo, hi, last, _, _, h2, h3, _⟩, lo', hi', last', _, _, h4, h5, _⟩ := hax q hq
      refine ⟨h0, h0', by rw [List.length_map]; exact h4.1, ?_⟩
      rw [h1]
      exact ⟨rfl, h3, h5, ⟨lo, last, h2⟩, lo', last', h4⟩) nJobs hn X' hX' hE
    rw [if_pos rfl] at htr
    refine ⟨_, by rw [hfit]; exact htr, by simp, ?_⟩
    intro i j D q h1 h2
    rw [← hw]
    have hq := List.mem_of_getElem? h2
    refine ⟨_, ?_, by simp [entry2, h1, h2, noNaN]; rfl⟩
    obtain ⟨h0, h0', st₀, st₁, h3, ⟨lo, hi, last, _, _, h4, h5, _⟩, lo', hi', last', _, _, h6, h7, _⟩ := hax q hq
    obtain ⟨H, hH, him⟩ := imageOne_image (E.smooth (e.params.sigma / st₀) (e.params.sigma / st₁)) (ax q).1.1 (ax q).2.1 e.params.nBins lo last st₀ lo' last' st₁ hb h5 h7 h4 h6
      (hG _ _ _) (effectiveWeight e.params) (pointsIn D q)
    have := hg q hq (pointsIn D q)
    have e0 : (ax q).1.2 = some st₀ := by rw [h3]
    have e1 : (ax q).2.2 = some st₁ := by rw [h3]
    simp only [e0, e1, Option.getD_some] at this ⊢
    rw [hH, Except.ok.injEq] at this
    rw [← this]
    exact him

/-- **C113**, silhouettes: likewise. If every diagram has an off-diagonal point in every fitted dimension, values are averages of tent functions weighted by powers of lifetimes. -/
theorem C113_silhouette (E : Engine ℝ) (hpow : ∀ x p : ℝ, E.pow x p = x ^ p) (e : Est ℝ Q) (X : List (List (Pt ℝ Q))) (hb : 2 ≤ e.params.nBins) (hp : 0 < e.params.power) (hT : Training X) :
    (fit .silhouette X e).2 = .ok () ∧ ∃ (dims : List Q) (s : Q → List ℝ), DimsOfFirst dims X ∧ (∀ q ∈ dims, ∃ step, Grid X dims q e.params.nBins (s q) step) ∧
      ∀ nJobs, 1 ≤ nJobs → ∀ X', Valid X' → (∀ q ∈ dims, EqualCounts X' q) → (∀ q ∈ dims, ∀ D ∈ X', ∃ p ∈ D, p.q = q ∧ p.b ≠ p.d) →
        ∃ R, transform E .silhouette nJobs X' (fit .silhouette X e).1 = .ok (.curves R) ∧
          ∀ (i j t : Nat) D q x, X'[i]? = some D → dims[j]? = some q → (s q)[t]? = some x →
            0 < ((pointsIn D q).map fun p => (p.d - p.b) ^ e.params.power).sum ∧
            ∃ v, entry3 R i j t = some (some v) ∧
              v = ((pointsIn D q).map fun p => (p.d - p.b) ^ e.params.power * tent p.b p.d x).sum / ((pointsIn D q).map fun p => (p.d - p.b) ^ e.params.power).sum := by
  have hv : validate .silhouette e.params = .ok () := by
    unfold validate
    rw [if_neg (by omega)]
    exact if_neg (not_le.mpr hp)
  obtain ⟨hok, dims, ax, z, w, hds, hne, hfit, hax⟩ := fitted_grid .silhouette (by decide) e X hb hT hv
  refine ⟨hok, dims, fun q => (ax q).1.1, hds, fun q hq => ?_, ?_⟩
  · obtain ⟨-, step, -, h⟩ := hax q hq
    exact ⟨step, h⟩
  · intro nJobs hn X' hX' hE ho
    obtain ⟨R, hR, hent⟩ := C29_weighted_average e.params.power hp dims (fun q => (ax q).1.1) nJobs X' hn hne hX'.1 hE hX'.2.2 ho
    refine ⟨R, ?_, ?_⟩
    · rw [hfit]
      unfold transform
      dsimp only
      rw [(check_ok_iff X').mpr hX']
      simp only [ok_bind]
      rw [perDim_congr _ (fun q Y => Y.mapM (silhouetteOne (fun x => x ^ e.params.power) (decide (8 < e.params.power)) (ax q).1.1)) _ _ _ ?_]
      · unfold silhouettePow silhouetteTransform at hR
        rw [hR]
        rfl
      · intro q hq Y
        rw [(hax q hq).1]
        simp only [ok_bind, hpow]
    · intro i j t D q x h1 h2 h3
      obtain ⟨a, v, b, c, -⟩ := hent i j t D q x h1 h2 h3
      exact ⟨a, v, b, c⟩

/-! ### Histories -/

theorem fit_fresh (kind : Kind) (X : List (List (Pt K Q))) (e : Est K Q) :
    (fit kind X e).2 = (fit kind X (new e.params)).2 ∧ ((fit kind X e).2 = .ok () → (fit kind X e).1 = (fit kind X (new e.params)).1) := by
  have h2 : (fit kind X e).2 = (fit kind X (new e.params)).2 := by
    unfold fit new
    dsimp only
    cases check X with
    | error er => rfl
    | ok u =>
      dsimp only
      cases validate kind e.params with
      | error er => rfl
      | ok u =>
        dsimp only
        cases binSampling (decide (kind = .image)) e.params.nBins (observedDims X) X <;> rfl
  refine ⟨h2, fun h => ?_⟩
  obtain ⟨-, -, L, hL, he⟩ := fit_success kind X e h
  obtain ⟨-, -, L', hL', he'⟩ := fit_success kind X (new e.params) (by rw [← h2]; exact h)
  have e0 : (new e.params : Est K Q).params = e.params := rfl
  rw [e0, hL, Except.ok.injEq] at hL'
  rw [he, he', e0, hL']

theorem run_params (kind : Kind) (ops : List (Op K Q)) (e : Est K Q) : (run kind ops e).params = lastSet e.params ops := by
  unfold run
  induction ops generalizing e with
  | nil => rfl
  | cons op ops ih =>
    rw [List.foldl_cons, ih]
    cases op with
    | set P => rfl
    | fit X =>
      have : (fit kind X e).1.params = e.params := by
        unfold fit
        dsimp only
        split
        · rfl
        · split
          · rfl
          · split <;> rfl
      dsimp only [lastSet]
      rw [this]

/-- **C113**, histories: after any sequence of parameter changes and calls of `fit` (some of which may have failed), a successful `fit` followed by parameter changes leaves the object exactly as a new object
with the parameters at the time of that call, fitted on the same collection, to which the last parameter change has been applied. So `transform` depends only on the last `fit` (if it succeeded), on the
parameters at that time and on the current parameters. -/
theorem C113_history (kind : Kind) (P₀ : Params K) (ops : List (Op K Q)) (X : List (List (Pt K Q))) (Ps : List (Params K))
    (h : (fit kind X (run kind ops (new P₀))).2 = .ok ()) :
    let P := lastSet P₀ ops
    (fit kind X (new P)).2 = .ok () ∧
      run kind (ops ++ .fit X :: Ps.map .set) (new P₀) = setParams (Ps.getLastD P) (fit kind X (new P)).1 := by
  dsimp only
  have hp : (run kind ops (new P₀ : Est K Q)).params = lastSet P₀ ops := run_params kind ops _
  obtain ⟨h1, h2⟩ := fit_fresh kind X (run kind ops (new P₀))
  rw [hp] at h1 h2
  refine ⟨by rw [← h1]; exact h, ?_⟩
  have hrun : run kind (ops ++ .fit X :: Ps.map .set) (new P₀) = run kind (Ps.map .set) (fit kind X (new (lastSet P₀ ops))).1 := by
    rw [← h2 h]
    unfold run
    rw [List.foldl_append, List.foldl_cons]
  rw [hrun]
  have hpar : (fit kind X (new (lastSet P₀ ops) : Est K Q)).1.params = lastSet P₀ ops := run_params kind [.fit X] (new (lastSet P₀ ops))
  generalize (fit kind X (new (lastSet P₀ ops) : Est K Q)).1 = e' at hpar
  rw [← hpar]
  clear hrun h h1 h2 hp hpar
  induction Ps generalizing e' with
  | nil => rfl
  | cons P Ps ih =>
    have : run kind ((P :: Ps).map Op.set) e' = run kind (Ps.map Op.set) (setParams P e') := rfl
    rw [this, ih]
    unfold setParams
    cases Ps with
    | nil => rfl
    | cons P' Ps =>
      simp only [List.getLastD_cons]

/-- **C113**, parameters changed after `fit`: `n_layers`, `sigma` and `power` take effect at once, as if they had been set before `fit`. -/
theorem C113_set_after_fit (E : Engine K) (kind : Kind) (e : Est K Q) (X : List (List (Pt K Q))) (P' : Params K) (h : (fit kind X e).2 = .ok ())
    (h' : (fit kind X (setParams P' e)).2 = .ok ()) (hb : P'.nBins = e.params.nBins) (hw : P'.weight = e.params.weight) (nJobs : Nat) (X' : List (List (Pt K Q))) :
    transform E kind nJobs X' (setParams P' (fit kind X e).1) = transform E kind nJobs X' (fit kind X (setParams P' e)).1 := by
  obtain ⟨-, -, L, hL, he⟩ := fit_success kind X e h
  obtain ⟨-, -, L', hL', he'⟩ := fit_success kind X _ h'
  have e0 : (setParams P' e : Est K Q).params = P' := rfl
  rw [e0, hb, hL, Except.ok.injEq] at hL'
  have ew : effectiveWeight P' = effectiveWeight e.params := by unfold effectiveWeight; rw [hw]
  rw [he, he', e0, hL', ew]
  rfl

/-- **C113**, parameters changed after `fit`: a new weight function is ignored until the next `fit`, and so is a new number of bins for Betti curves and silhouettes. -/
theorem C113_ignored_after_fit (E : Engine K) (kind : Kind) (e : Est K Q) (nJobs : Nat) (X' : List (List (Pt K Q))) (w : Option (K → K)) (n : Nat) :
    transform E kind nJobs X' (setParams { e.params with weight := w } e) = transform E kind nJobs X' e ∧
    (kind = .betti ∨ kind = .silhouette → transform E kind nJobs X' (setParams { e.params with nBins := n } e) = transform E kind nJobs X' e) := by
  constructor
  · cases kind <;> rfl
  · rintro (rfl | rfl) <;> rfl

/-- **C113**, parameters changed after `fit`: with another number of bins, landscapes, heat kernels and persistence images raise `ValueError` on every valid collection; nothing is arranged wrongly. -/
theorem C113_bins_after_fit (E : Engine K) (hG : KeepsSize E) (kind : Kind) (hk : kind = .landscape ∨ kind = .heat ∨ kind = .image) (e : Est K Q) (X : List (List (Pt K Q)))
    (hb : 2 ≤ e.params.nBins) (hT : Training X) (hl : 1 ≤ e.params.nLayers) (hs : 0 < e.params.sigma) (P' : Params K) (hP : P'.nBins ≠ e.params.nBins) (hl' : 1 ≤ P'.nLayers) (nJobs : Nat) (hn : 1 ≤ nJobs)
    (X' : List (List (Pt K Q))) (hX' : Valid X') (hE : ∀ D, X[0]? = some D → ∀ p ∈ D, EqualCounts X' p.q) :
    transform E kind nJobs X' (setParams P' (fit kind X e).1) = .error .valueError := by
  have hEd : ∀ dims, DimsOfFirst dims X → ∀ q ∈ dims, EqualCounts X' q := by
    intro dims hd q hq
    obtain ⟨D, hD, p, hp, rfl⟩ := (hd.2 q).mp hq
    exact hE D hD p hp
  rcases hk with rfl | rfl | rfl
  · have hv : validate .landscape e.params = .ok () := by
      unfold validate
      rw [if_neg (by omega)]
      exact if_neg (by omega)
    obtain ⟨hok, dims, ax, z, w, hds, hne, hfit, hax⟩ := fitted_grid .landscape (by decide) e X hb hT hv
    rw [hfit]
    unfold setParams
    rw [landscape_eq E P' dims ax z w e.params.nBins hne (fun q hq => (hax q hq).1) (fun q hq => by
      obtain ⟨-, step, -, h⟩ := hax q hq
      exact grid_length h) hl' nJobs hn X' hX' (hEd dims hds), if_neg (Ne.symm hP)]
  · have hv : validate .heat e.params = .ok () := by
      unfold validate
      rw [if_neg (by omega)]
      exact if_neg (not_le.mpr hs)
    obtain ⟨hok, dims, ax, z, w, hds, hne, hfit, hax⟩ := fitted_grid .heat (by decide) e X hb hT hv
    rw [hfit]
    unfold setParams
    obtain ⟨g, -, htr⟩ := heat_eq E hG P' dims ax z w e.params.nBins hb hne (fun q => ((ax q).1.2).getD 0) (fun q hq => by
      obtain ⟨h0, step, h1, lo, hi, last, h2, h3, h4, h5, h6⟩ := hax q hq
      rw [h1]
      exact ⟨h0, rfl, h5, lo, last, h4⟩) nJobs hn X' hX' (hEd dims hds)
    rw [if_neg (Ne.symm hP)] at htr
    exact htr
  · have hv : validate .image e.params = .ok () := by
      unfold validate
      rw [if_neg (by omega)]
      exact if_neg (not_le.mpr hs)
    obtain ⟨hok, dims, ax, z, w, hds, hne, hfit, hax⟩ := fitted_image e X hb hT hv
    rw [hfit]
    unfold setParams
    obtain ⟨g, -, htr⟩ := image_eq E hG P' dims ax z w (fun q => (ax q).2.1.map (effectiveWeight e.params)) e.params.nBins hb hne
      (fun q => ((ax q).1.2).getD 0) (fun q => ((ax q).2.2).getD 0) (fun q hq => by
      obtain ⟨h0, h0', st₀, st₁, h1, ⟨lo, hi, last, _, _, h2, h3, _⟩, lo', hi', last', _, _, h4, h5, _⟩ := hax q hq
      refine ⟨h0, h0', by rw [List.length_map]; exact h4.1, ?_⟩
      rw [h1]
      exact ⟨rfl, h3, h5, ⟨lo, last, h2⟩, lo', last', h4⟩) nJobs hn X' hX' (hEd dims hds)
    rw [if_neg (Ne.symm hP)] at htr
    exact htr

/-! ### Failures -/

/-- **C113**, failures, partial: a call of `fit` that fails leaves the object unchanged if the collection is invalid or a parameter is; otherwise the collection is no training collection (its first diagram is
empty, or the numbers of points differ in some dimension of it) and only the homology dimensions of the object are replaced. Missing: in the last case the object should not have changed either, which is false
(`C113_refuted_failed_fit`). -/
theorem C113_failed_fit_partial (kind : Kind) (e : Est K Q) (X : List (List (Pt K Q))) (er : PyErr) (h : (fit kind X e).2 = .error er) :
    (fit kind X e).1 = e ∨
      (Valid X ∧ ¬ Training X ∧ ∃ dims, DimsOfFirst dims X ∧ (fit kind X e).1 = { e with dims := some dims }) := by
  by_cases hT : Training X
  · left
    by_cases hv : validate kind e.params = .ok ()
    · rw [fit_training kind X e hT hv] at h
      cases h
    · unfold fit
      rw [(check_ok_iff X).mpr hT.1]
      dsimp only
      cases hv' : validate kind e.params with
      | error er => rfl
      | ok u => exact absurd hv' hv
  · unfold fit at h ⊢
    cases hc : check X with
    | error er => left; rfl
    | ok u =>
      rw [hc] at h
      dsimp only at h ⊢
      cases hv : validate kind e.params with
      | error er => left; rfl
      | ok u =>
        rw [hv] at h
        dsimp only at h ⊢
        cases hb : binSampling (decide (kind = .image)) e.params.nBins (observedDims X) X with
        | error er => exact Or.inr ⟨(check_ok_iff X).mp hc, hT, _, observedDims_spec X, rfl⟩
        | ok L => rw [hb] at h; cases h

/-- **C113**, a single bin: `fit` accepts `n_bins=1`, but every heat kernel image then consists of NaN. -/
theorem C113_refuted_one_bin (E : Engine K) (e : Est K Q) (X : List (List (Pt K Q))) (hb : e.params.nBins = 1) (hs : 0 < e.params.sigma) (hT : Training X) (nJobs : Nat) (hn : 1 ≤ nJobs)
    (X' : List (List (Pt K Q))) (hX' : Valid X') (hE : ∀ D, X[0]? = some D → ∀ p ∈ D, EqualCounts X' p.q) :
    (fit .heat X e).2 = .ok () ∧ ∃ dims, DimsOfFirst dims X ∧ transform E .heat nJobs X' (fit .heat X e).1 = .ok (.images (X'.map fun _ => dims.map fun _ => [[none]])) := by
  have hv : validate .heat e.params = .ok () := by
    unfold validate
    rw [if_neg (by omega)]
    exact if_neg (not_le.mpr hs)
  have hok := fit_training .heat X e hT hv
  obtain ⟨h1, h2, h3⟩ := training_dims X hT
  obtain ⟨-, -, L, hL, hfit⟩ := fit_success .heat X e hok
  have hds := observedDims_spec X
  have hnd : (observedDims X).Nodup := hds.1.imp fun h => ne_of_lt h
  obtain ⟨hlen, hlen'⟩ := binSampling_lengths _ _ _ _ _ hL
  refine ⟨hok, observedDims X, hds, ?_⟩
  have hEd : ∀ q ∈ observedDims X, EqualCounts X' q := by
    intro q hq
    obtain ⟨D, hD, p, hp, rfl⟩ := (hds.2 q).mp hq
    exact hE D hD p hp
  have hit : ∀ q ∈ observedDims X, entryOf (some ((observedDims X).zip L)) q = .ok (axesOf (observedDims X) L q) ∧
      ∀ D : List (Pt K Q), heatItem E e.params.sigma (axesOf (observedDims X) L q).1 D = .ok [[none]] := by
    intro q hq
    obtain ⟨j, hj⟩ := List.mem_iff_getElem?.mp hq
    obtain ⟨a1, a2⟩ := axesOf_spec _ _ hnd hlen j q hj
    obtain ⟨b1, -, b2, -⟩ := hlen' _ (List.mem_of_getElem? a1)
    refine ⟨a2, fun D => ?_⟩
    unfold heatItem
    rw [b2.mpr (by omega), b1, hb]
    rfl
  rw [hfit]
  unfold transform
  dsimp only
  rw [(check_ok_iff X').mpr hX']
  simp only [ok_bind]
  rw [← bind_assoc, perDim_congr _ (fun q Y => Y.mapM (heatItem E e.params.sigma (axesOf (observedDims X) L q).1)) _ _ _ (fun q hq Y => by rw [(hit q hq).1]; rfl),
    images_eq _ (fun _ _ => [[none]]) (observedDims X) 1 e.params.nBins nJobs X' hn h1 hX'.1 hEd ?_ (fun _ _ _ _ => by simp [SquareImage]), if_pos hb.symm]
  · rfl
  · intro q hq Y _ _
    rw [mapM_ok (g := fun _ => [[none]]) (fun D _ => (hit q hq).2 D), List.map_map]
    rfl

end

/-! ### Witnesses and examples -/

/-- An engine over the rational numbers, used in the examples. -/
def vecE : Engine ℚ := ⟨fun _ _ I => I, fun x _ => x, 0⟩
def vecP : Params ℚ := ⟨3, 2, 1, 1, none⟩
def vecX : List (List (Pt ℚ Nat)) := [[⟨0, 2, 0⟩, ⟨1, 3, 0⟩, ⟨0, 1, 1⟩], [⟨0, 4, 0⟩, ⟨1, 4, 1⟩, ⟨2, 2, 0⟩]]
/-- Valid, but its diagrams do not have the same number of points in dimension 0. -/
def vecBad : List (List (Pt ℚ Nat)) := [[⟨0, 1, 0⟩, ⟨0, 1, 0⟩], [⟨0, 1, 0⟩, ⟨0, 1, 1⟩]]

theorem vecX_training : Training vecX := by unfold Training Valid EqualCounts; decide +kernel

/-- **C113**, failures: a failed call of `fit` can silently change what a fitted object computes. Here the object is fitted on diagrams with features in dimensions 0 and 1; a later `fit` raises `ValueError`
because of different numbers of points, after which `transform` returns curves in dimension 0 only. -/
theorem C113_refuted_failed_fit :
    let e := (fit .betti vecX (new vecP)).1
    (fit .betti vecX (new vecP)).2 = .ok () ∧ (fit .betti vecBad e).2 = .error .valueError ∧
      transform vecE .betti 1 vecX e = .ok (.counts [[[1, 1, 0], [1, 0, 0]], [[1, 1, 0], [0, 1, 0]]]) ∧
      transform vecE .betti 1 vecX (fit .betti vecBad e).1 = .ok (.counts [[[1, 1, 0]], [[1, 1, 0]]]) := by decide +kernel

/-- **C113**, failures: after a failed first call of `fit` the object counts as fitted, and `transform` raises `AttributeError` instead of `NotFittedError`. -/
theorem C113_refuted_not_fitted :
    (fit .betti vecBad (new vecP)).2 = .error .valueError ∧ transform vecE .betti 1 vecX (new vecP) = .error .notFitted ∧
      transform vecE .betti 1 vecX (fit .betti vecBad (new vecP)).1 = .error .attributeError := by decide +kernel

/-- **C113**, number of jobs: if the numbers of points differ between diagrams, whether `transform` raises depends on the number of jobs. -/
theorem C113_refuted_jobs :
    let e := (fit .betti vecX (new vecP)).1
    transform vecE .betti 1 vecBad e = .error .valueError ∧ ∃ R, transform vecE .betti 2 vecBad e = .ok (.counts R) := by
  refine ⟨by decide +kernel, [[[2, 0, 0], [0, 0, 0]], [[1, 0, 0], [1, 0, 0]]], by decide +kernel⟩

example : transform vecE .landscape 2 vecX (fit .landscape vecX (new vecP)).1 =
    .ok (.layers [[[0, 1, 0], [0, 0, 0], [0, 0, 0], [0, 0, 0]], [[0, 2, 0], [0, 0, 0], [0, 1, 0], [0, 0, 0]]]) := by decide +kernel
example : (fit .heat vecX (new vecP)).2 = .ok () ∧ (fit .image vecX (new vecP)).2 = .ok () ∧ (fit .silhouette vecX (new vecP)).2 = .ok () := by decide +kernel
example : transform vecE .heat 2 vecX (setParams { vecP with nBins := 4 } (fit .heat vecX (new vecP)).1) = .error .valueError := by decide +kernel
example : KeepsSize vecE := fun _ _ _ _ h => h
example : (fit .heat vecX (run .heat [.set { vecP with nBins := 1 }, .fit vecX, .fit vecBad, .set vecP] (new vecP))).2 = .ok () := by decide +kernel

end Gtda.Props
