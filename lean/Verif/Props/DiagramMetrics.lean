import Verif.Spec.DiagramMetrics
import Verif.Props.Vectorizers
import Verif.Props.Distances
import Verif.Props.Amplitudes

set_option autoImplicit false
set_option linter.unusedSectionVars false

/-!
# C114: `PairwiseDistance` and `Amplitude` as estimators
-/

namespace Gtda.Props.DiagramMetrics
open Gtda.Py Gtda.Parallel Gtda.Diagrams Gtda.DiagramMetrics Gtda.Spec.DiagramMetrics Gtda.Spec.Vectorizers
open Gtda.Vectorizers (Axes check observedDims heatItem imageItem entryOf Kind)

section
variable {K Q : Type} [Field K] [LinearOrder K]

theorem allowed_p (c : Cls) (m : Metric) : Key.p ∈ allowed c m ↔ m ≠ .bottleneck := by cases c <;> cases m <;> decide
theorem allowed_nBins (c : Cls) (m : Metric) : Key.nBins ∈ allowed c m ↔ m ≠ .bottleneck ∧ m ≠ .wasserstein := by cases c <;> cases m <;> decide
theorem allowed_nLayers (c : Cls) (m : Metric) : Key.nLayers ∈ allowed c m ↔ m = .landscape := by cases c <;> cases m <;> decide
theorem allowed_sigma (c : Cls) (m : Metric) : Key.sigma ∈ allowed c m ↔ m = .heat ∨ m = .image := by cases c <;> cases m <;> decide
theorem allowed_power (c : Cls) (m : Metric) : Key.power ∈ allowed c m ↔ m = .silhouette := by cases c <;> cases m <;> decide
theorem allowed_delta (c : Cls) (m : Metric) : Key.delta ∈ allowed c m ↔ c = .distance ∧ (m = .bottleneck ∨ m = .wasserstein) := by cases c <;> cases m <;> decide
theorem allowed_weight (c : Cls) (m : Metric) : Key.weight ∈ allowed c m ↔ m = .image := by cases c <;> cases m <;> decide

theorem key_any {α : Type} (o : Option α) (k : Key) (l : List Key) : ¬ ((if o.isSome then [k] else []).any fun k => decide (k ∉ l)) = true ↔ ∀ x, o = some x → k ∈ l := by
  cases o <;> simp

theorem keys_ok (c : Cls) (metric : Metric) (m : MParams K) : ¬ (m.keys.any fun k => decide (k ∉ allowed c metric)) = true ↔
    (∀ x, m.p = some x → metric ≠ .bottleneck) ∧ (∀ x, m.nBins = some x → metric ≠ .bottleneck ∧ metric ≠ .wasserstein) ∧ (∀ x, m.nLayers = some x → metric = .landscape) ∧
    (∀ x, m.sigma = some x → metric = .heat ∨ metric = .image) ∧ (∀ x, m.power = some x → metric = .silhouette) ∧
    (∀ x, m.delta = some x → c = .distance ∧ (metric = .bottleneck ∨ metric = .wasserstein)) ∧ (∀ x, m.weight = some x → metric = .image) := by
  unfold MParams.keys
  simp only [List.any_append, Bool.or_eq_true, not_or]
  rw [key_any, key_any, key_any, key_any, key_any, key_any, key_any, allowed_p, allowed_nBins, allowed_nLayers, allowed_sigma, allowed_power, allowed_delta, allowed_weight]
  simp only [and_assoc]

theorem range_ok (metric : Metric) (m : MParams K) : m.inRange metric = true ↔
    (m.p = some none → metric ≠ .wasserstein) ∧ (∀ x, m.p = some (some x) → 1 ≤ x) ∧ (∀ n, m.nBins = some n → 1 ≤ n) ∧ (∀ n, m.nLayers = some n → 1 ≤ n) ∧
    (∀ x, m.sigma = some x → 0 < x) ∧ (∀ x, m.power = some x → 0 < x) ∧ (∀ x, m.delta = some x → (if metric = .bottleneck then 0 ≤ x else 0 < x) ∧ x ≤ 1) := by
  obtain ⟨p, nBins, nLayers, sigma, power, delta, weight⟩ := m
  unfold MParams.inRange
  simp only [Bool.and_eq_true, and_assoc]
  refine Iff.trans (and_congr ?_ (and_congr ?_ (and_congr ?_ (and_congr ?_ (and_congr ?_ ?_))))) and_assoc
  · rcases p with _ | _ | x <;> simp
  · cases nBins <;> simp
  · cases nLayers <;> simp
  · cases sigma <;> simp
  · cases power <;> simp
  · cases delta with
    | none => simp
    | some x => by_cases h : metric = .bottleneck <;> simp [h]

theorem validate_ok (P : Params K) (metric : Metric) : validate P = .ok metric ↔ P.metric = some metric ∧ ∀ x, P.order = some (some x) → 0 < x := by
  obtain ⟨met, mp, order⟩ := P
  unfold validate
  cases met with
  | none => simp
  | some m =>
    dsimp only
    rcases order with _ | _ | x
    · simp
    · simp
    · dsimp only
      by_cases h : x ≤ 0
      · rw [if_pos h]
        simp [h]
      · rw [if_neg h]
        simp [not_le.mp h]

theorem validateMetric_ok_iff (c : Cls) (metric : Metric) (m : MParams K) : validateMetric c metric m = .ok () ↔
    (¬ (m.keys.any fun k => decide (k ∉ allowed c metric)) = true) ∧ m.inRange metric = true := by
  unfold validateMetric
  split_ifs with h1 h2
  · exact ⟨fun h => (by cases h), fun h => absurd h1 h.1⟩
  · exact ⟨fun _ => ⟨h1, h2⟩, fun _ => rfl⟩
  · exact ⟨fun h => (by cases h), fun h => absurd h.2 h2⟩

theorem validateMetric_ok (c : Cls) (P : Params K) (metric : Metric) : (validate P = .ok metric ∧ validateMetric c metric (P.mp.getD {}) = .ok ()) ↔ ValidParams c P metric := by
  obtain ⟨met, mp, order⟩ := P
  rw [validate_ok, validateMetric_ok_iff, keys_ok, range_ok]
  dsimp only
  cases mp with
  | none =>
    simp only [Option.getD_none]
    constructor
    · rintro ⟨⟨hk, ho⟩, -⟩
      refine ⟨hk, ho, ?_, ?_, ?_, ?_, ?_, ?_, ?_, ?_, ?_, ?_, ?_⟩ <;> intro m <;> intros <;> contradiction
    · rintro ⟨hk, ho, -⟩
      refine ⟨⟨hk, ho⟩, ⟨?_, ?_, ?_, ?_, ?_, ?_, ?_⟩, ?_, ?_, ?_, ?_, ?_, ?_, ?_⟩ <;> intros <;> contradiction
  | some m =>
    simp only [Option.getD_some]
    constructor
    · rintro ⟨⟨hk, ho⟩, ⟨k1, k2, k3, k4, k5, k6, k7⟩, r1, r2, r3, r4, r5, r6, r7⟩
      have key : ∀ m', some m = some m' → m' = m := fun m' h => (Option.some.inj h).symm
      refine ⟨hk, ho, ?_, ?_, ?_, ?_, ?_, ?_, ?_, ?_, ?_, ?_, ?_⟩
      · intro m' x h hx; rw [key m' h] at hx; exact k6 x hx
      · intro m' x h hx
        rw [key m' h] at hx
        obtain ⟨h1, h2⟩ := r7 x hx
        refine ⟨h2, ?_, ?_⟩
        · split_ifs at h1
          · exact h1
          · exact le_of_lt h1
        · rintro rfl
          rw [if_neg (by decide)] at h1
          exact ne_of_gt h1
      · intro m' x h hx; rw [key m' h] at hx; exact k1 x hx
      · intro m' x h hx; rw [key m' h] at hx; exact r2 x hx
      · intro m' h hx; rw [key m' h] at hx; exact r1 hx
      · intro m' x h hx; rw [key m' h] at hx; exact k2 x hx
      · intro m' x h hx; rw [key m' h] at hx; exact r3 x hx
      · intro m' x h hx; rw [key m' h] at hx; exact ⟨k3 x hx, r4 x hx⟩
      · intro m' x h hx; rw [key m' h] at hx; exact ⟨k4 x hx, r5 x hx⟩
      · intro m' x h hx; rw [key m' h] at hx; exact ⟨k5 x hx, r6 x hx⟩
      · intro m' x h hx; rw [key m' h] at hx; exact k7 x hx
    · rintro ⟨hk, ho, h1, h2, h3, h4, h5, h6, h7, h8, h9, h10, h11⟩
      refine ⟨⟨hk, ho⟩, ⟨fun x => h3 m x rfl, fun x => h6 m x rfl, fun x hx => (h8 m x rfl hx).1, fun x hx => (h9 m x rfl hx).1, fun x hx => (h10 m x rfl hx).1,
        fun x hx => h1 m x rfl hx, fun x hx => h11 m x rfl hx⟩, h5 m rfl, fun x hx => h4 m x rfl hx, fun x hx => h7 m x rfl hx, fun x hx => (h8 m x rfl hx).2,
        fun x hx => (h9 m x rfl hx).2, fun x hx => (h10 m x rfl hx).2, ?_⟩
      intro x hx
      obtain ⟨a, b, c⟩ := h2 m x rfl hx
      refine ⟨?_, a⟩
      obtain ⟨-, d⟩ := h1 m x rfl hx
      split_ifs with he
      · exact b
      · rcases d with d | d
        · exact absurd d he
        · exact lt_of_le_of_ne b (Ne.symm (c d))

theorem fit_success [LinearOrder Q] (c : Cls) (X : List (List (Pt K Q))) (e : Est K Q) (h : (fit c X e).2 = .ok ()) :
    Valid X ∧ ∃ metric L, ValidParams c e.params metric ∧ binSampling (decide (metric = .image)) ((e.params.mp.getD {}).nBins.getD 100) (observedDims X) X = .ok L ∧
      (fit c X e).1 = ⟨e.params, some ⟨storeWeight metric (e.params.mp.getD {}), some (metric, (observedDims X).zip L)⟩, some (observedDims X),
        if c = .distance then some X else none⟩ := by
  unfold fit at h ⊢
  cases hc : check X with
  | error er => rw [hc] at h; cases h
  | ok u =>
    rw [hc] at h
    dsimp only at h ⊢
    cases hv : validate e.params with
    | error er => rw [hv] at h; cases h
    | ok metric =>
      rw [hv] at h
      dsimp only at h ⊢
      cases hm : validateMetric c metric (e.params.mp.getD {}) with
      | error er => rw [hm] at h; cases h
      | ok u =>
        rw [hm] at h
        dsimp only at h ⊢
        cases hb : binSampling (decide (metric = .image)) ((e.params.mp.getD {}).nBins.getD 100) (observedDims X) X with
        | error er => rw [hb] at h; cases h
        | ok L => exact ⟨(Gtda.Props.Vectorizers.check_ok_iff X).mp hc, metric, L, (validateMetric_ok c e.params metric).mp ⟨hv, hm⟩, hb, rfl⟩

theorem fit_training [LinearOrder Q] [IsStrictOrderedRing K] (c : Cls) (X : List (List (Pt K Q))) (e : Est K Q) (metric : Metric) (hT : Training X) (hv : ValidParams c e.params metric) :
    (fit c X e).2 = .ok () := by
  obtain ⟨h1, h2, h3⟩ := Gtda.Props.Vectorizers.training_dims X hT
  obtain ⟨L, -, -, hL, -⟩ := binSampling_spec (decide (metric = .image)) ((e.params.mp.getD {}).nBins.getD 100) (observedDims X) X h1 h2 h3 hT.1.2.2
  obtain ⟨g1, g2⟩ := (validateMetric_ok c e.params metric).mpr hv
  unfold fit
  rw [(Gtda.Props.Vectorizers.check_ok_iff X).mpr hT.1, g1]
  dsimp only
  rw [g2]
  dsimp only
  rw [hL]

theorem asVectorizer_eq (P : Params K) :
    asVectorizer P = ⟨(P.mp.getD {}).nBins.getD 100, (P.mp.getD {}).nLayers.getD 1, (P.mp.getD {}).sigma.getD (1 / 10), (P.mp.getD {}).power.getD 1, (P.mp.getD {}).weight.getD none⟩ := by
  unfold asVectorizer
  cases P.mp <;> rfl

theorem asVectorizer_valid [IsStrictOrderedRing K] (c : Cls) (P : Params K) (metric : Metric) (kind : Kind) (hv : ValidParams c P metric) :
    Gtda.Vectorizers.validate kind (asVectorizer P) = .ok () ∧ 1 ≤ (asVectorizer P).nLayers ∧ 0 < (asVectorizer P).sigma ∧ 0 < (asVectorizer P).power := by
  have h : 1 ≤ (asVectorizer P).nBins ∧ 1 ≤ (asVectorizer P).nLayers ∧ 0 < (asVectorizer P).sigma ∧ 0 < (asVectorizer P).power := by
    unfold asVectorizer
    cases hm : P.mp with
    | none => simp
    | some m =>
      dsimp only
      refine ⟨?_, ?_, ?_, ?_⟩
      · cases h : m.nBins with
        | none => simp
        | some n => exact hv.bins m n hm h
      · cases h : m.nLayers with
        | none => simp
        | some n => exact (hv.layers m n hm h).2
      · cases h : m.sigma with
        | none => simp
        | some n => exact (hv.sigma m n hm h).2
      · cases h : m.power with
        | none => simp
        | some n => exact (hv.power m n hm h).2
  refine ⟨?_, h.2⟩
  obtain ⟨h1, h2, h3, h4⟩ := h
  unfold Gtda.Vectorizers.validate
  rw [if_neg (by omega)]
  cases kind
  · rfl
  · exact if_neg (by omega)
  · exact if_neg (not_le.mpr h4)
  · exact if_neg (not_le.mpr h3)
  · exact if_neg (not_le.mpr h3)

section
variable [IsStrictOrderedRing K] [FloorRing K] [LinearOrder Q]
open Gtda.Props.Vectorizers (axesOf axesOf_spec check_ok_iff observedDims_spec training_dims)

theorem fitted_axes (kind : Kind) (hk : kind ≠ .image) (v : Gtda.Vectorizers.Est K Q) (X : List (List (Pt K Q))) (hb : 2 ≤ v.params.nBins) (hT : Training X)
    (hv : Gtda.Vectorizers.validate kind v.params = .ok ()) (L : List (Axes K)) (hL : binSampling false v.params.nBins (observedDims X) X = .ok L) :
    (Gtda.Vectorizers.fit kind X v).2 = .ok () ∧ (∃ w, (Gtda.Vectorizers.fit kind X v).1 = ⟨v.params, some (observedDims X), some ((observedDims X).zip L), w⟩) ∧
      ∀ q ∈ observedDims X, entryOf (some ((observedDims X).zip L)) q = .ok (axesOf (observedDims X) L q) ∧
        ∃ step, (axesOf (observedDims X) L q).1.2 = some step ∧ Grid X (observedDims X) q v.params.nBins (axesOf (observedDims X) L q).1.1 step := by
  obtain ⟨hok, dims, ax, z, w, hds, hne, hfit, hax⟩ := fitted_grid kind hk v X hb hT hv
  obtain ⟨-, -, L', hL', hfit'⟩ := Gtda.Props.Vectorizers.fit_success kind X v hok
  rw [decide_eq_false hk, hL, Except.ok.injEq] at hL'
  subst hL'
  rw [hfit'] at hfit
  injection hfit with _ h1 h2 h3
  injection h1 with h1
  injection h2 with h2
  subst h1 h2
  refine ⟨hok, ⟨_, hfit'⟩, ?_⟩
  intro q hq
  obtain ⟨a1, step, a2, a3⟩ := hax q hq
  have : axesOf (observedDims X) L q = ax q := by unfold axesOf; rw [a1]
  rw [this]
  exact ⟨a1, step, a2, a3⟩

theorem fitted_axes_image (v : Gtda.Vectorizers.Est K Q) (X : List (List (Pt K Q))) (hb : 2 ≤ v.params.nBins) (hT : Training X)
    (hv : Gtda.Vectorizers.validate .image v.params = .ok ()) (L : List (Axes K)) (hL : binSampling true v.params.nBins (observedDims X) X = .ok L) :
    (Gtda.Vectorizers.fit .image X v).2 = .ok () ∧ (∃ w, (Gtda.Vectorizers.fit .image X v).1 = ⟨v.params, some (observedDims X), some ((observedDims X).zip L), some w⟩ ∧
      ∀ q ∈ observedDims X, entryOf (some w) q = .ok ((axesOf (observedDims X) L q).2.1.map (Gtda.Vectorizers.effectiveWeight v.params))) ∧
      ∀ q ∈ observedDims X, entryOf (some ((observedDims X).zip L)) q = .ok (axesOf (observedDims X) L q) ∧
        ∃ step₀ step₁, axesOf (observedDims X) L q = (((axesOf (observedDims X) L q).1.1, some step₀), ((axesOf (observedDims X) L q).2.1, some step₁)) ∧
          BirthGrid X (observedDims X) q v.params.nBins (axesOf (observedDims X) L q).1.1 step₀ ∧
          LifetimeGrid X (observedDims X) q v.params.nBins (axesOf (observedDims X) L q).2.1 step₁ := by
  obtain ⟨hok, dims, ax, z, w, hds, hne, hfit, hax⟩ := fitted_image v X hb hT hv
  obtain ⟨-, -, L', hL', hfit'⟩ := Gtda.Props.Vectorizers.fit_success .image X v hok
  rw [decide_eq_true rfl, hL, Except.ok.injEq] at hL'
  subst hL'
  rw [hfit'] at hfit
  injection hfit with _ h1 h2 h3
  injection h1 with h1
  injection h2 with h2
  injection h3 with h3
  subst h1 h2 h3
  have hx : ∀ q ∈ observedDims X, axesOf (observedDims X) L q = ax q := by
    intro q hq
    unfold axesOf
    rw [(hax q hq).1]
  refine ⟨hok, ⟨_, hfit', ?_⟩, ?_⟩
  · intro q hq
    rw [hx q hq]
    exact (hax q hq).2.1
  · intro q hq
    rw [hx q hq]
    exact ⟨(hax q hq).1, (hax q hq).2.2⟩

end

theorem storeWeight_fields (metric : Metric) (m : MParams K) : (storeWeight metric m).p = m.p ∧ (storeWeight metric m).nBins = m.nBins ∧ (storeWeight metric m).nLayers = m.nLayers ∧
    (storeWeight metric m).sigma = m.sigma ∧ (storeWeight metric m).power = m.power ∧ (storeWeight metric m).delta = m.delta := by
  unfold storeWeight
  split
  · split <;> exact ⟨rfl, rfl, rfl, rfl, rfl, rfl⟩
  · exact ⟨rfl, rfl, rfl, rfl, rfl, rfl⟩

theorem storeWeight_image (P : Params K) : ((storeWeight .image (P.mp.getD {})).weight.getD none).getD (fun _ => 1) = Gtda.Vectorizers.effectiveWeight (asVectorizer P) := by
  rw [asVectorizer_eq]
  generalize P.mp.getD {} = m
  obtain ⟨p, nBins, nLayers, sigma, power, delta, weight⟩ := m
  unfold storeWeight Gtda.Vectorizers.effectiveWeight
  rcases weight with _ | _ | w <;> rfl

end

section
variable {Q : Type} [LinearOrder Q]
open Gtda.Props.Vectorizers (axesOf axesOf_spec check_ok_iff observedDims_spec training_dims perDim_congr)

theorem pOf_eq (P : Params ℝ) : toP ((P.mp.getD {}).p.getD (some 2)) = pOf P := by
  unfold pOf
  cases P.mp with
  | none => simp [toP]
  | some m =>
    simp only [Option.getD_some]
    rcases m.p with _ | _ | x
    · simp [toP]
    · rfl
    · rfl

theorem pOf_one_le (c : Cls) (P : Params ℝ) (metric : Metric) (h : ValidParams c P metric) : 1 ≤ pOf P := by
  unfold pOf
  cases hm : P.mp with
  | none => norm_num
  | some m =>
    dsimp only
    rcases hp : m.p with _ | _ | x
    · norm_num
    · exact le_top
    · exact ENNReal.one_le_ofReal.mpr (h.p m x hm hp)

theorem exponent_eq (metric : Metric) (p : Option ℝ) (hp : 0 < toP p) :
    powerOf metric p = exponent metric (toP p) := by
  unfold powerOf exponent
  unfold toP at *
  cases p with
  | none => simp
  | some x =>
    have hx : 0 < x := ENNReal.ofReal_pos.mp hp
    dsimp only
    have : (1 / ENNReal.ofReal x).toReal = 1 / x := by
      rw [ENNReal.toReal_div, ENNReal.toReal_ofReal hx.le]
      simp
    rw [this]
    split_ifs
    · rw [mul_one_div]
    · rfl

theorem flatten_noNaN {K : Type} (H : List (List K)) : (Gtda.Vectorizers.noNaN H).flatten = H.flatten.map some := by
  unfold Gtda.Vectorizers.noNaN
  rw [List.map_flatten]

theorem choose_images (dims : List Q) (T : Q → List (Pt ℝ Q) → List (List ℝ) → Prop) (h : ∀ q ∈ dims, ∀ D : List (Pt ℝ Q), ∃ H, T q D H) :
    ∃ g : Q → List (Pt ℝ Q) → List (List ℝ), ∀ q ∈ dims, ∀ D : List (Pt ℝ Q), T q D (g q D) := by
  have h' : ∀ q, ∀ D : List (Pt ℝ Q), ∃ H, q ∈ dims → T q D H := by
    intro q D
    by_cases hq : q ∈ dims
    · obtain ⟨H, hH⟩ := h q hq D
      exact ⟨H, fun _ => hH⟩
    · exact ⟨[], fun h => absurd h hq⟩
  choose g hg using h'
  exact ⟨g, fun q hq D => hg q D hq⟩

theorem drop_take_flatten {α β : Type} (f : α → List β) (n : Nat) (hf : ∀ a, (f a).length = n) (l : List α) (k : Nat) (a : α) (h : l[k]? = some a) :
    (((l.map f).flatten).drop (k * n)).take n = f a := by
  induction l generalizing k with
  | nil => simp at h
  | cons b t ih =>
    rw [List.map_cons, List.flatten_cons]
    cases k with
    | zero =>
      simp only [List.getElem?_cons_zero, Option.some.injEq] at h
      subst h
      rw [Nat.zero_mul, List.drop_zero, ← hf b, List.take_left]
    | succ k =>
      rw [List.getElem?_cons_succ] at h
      rw [Nat.succ_mul, Nat.add_comm, ← List.drop_drop]
      rw [List.drop_left' (hf b), ih k h]

/-- The vector of a diagram whose points have one dimension, for a metric that samples curves at `s`. -/
noncomputable def curveVec (metric : Metric) (P : Params ℝ) (s : List ℝ) (D : List (Pt ℝ Q)) : List ℝ :=
  match metric with
  | .betti => s.map fun x => (aliveCount x D : ℝ)
  | .landscape => layerVec s (asVectorizer P).nLayers D
  | .silhouette => s.map (weightedTents (fun x => x ^ (asVectorizer P).power) D)
  | _ => []

/-- What the fitted attributes mean for a metric based on vectors: axes, vectors, their lengths and the sizes of cells. -/
theorem core (E : Engine ℝ Q) (hE : RealEngine E) (c : Cls) (P : Params ℝ) (metric : Metric) (kind : Kind) (hP : ValidParams c P metric) (hk : vectorizer metric = some kind)
    (X : List (List (Pt ℝ Q))) (hT : Training X) (hb : 2 ≤ (asVectorizer P).nBins) (v : Gtda.Vectorizers.Est ℝ Q) (hv : v.params = asVectorizer P) (L : List (Axes ℝ))
    (hL : binSampling (decide (metric = .image)) (asVectorizer P).nBins (observedDims X) X = .ok L) :
    (Gtda.Vectorizers.fit kind X v).2 = .ok () ∧ ∃ (ax : Q → Axes ℝ) (vec : Q → List (Pt ℝ Q) → List ℝ) (len : Q → Nat) (cell : Q → ℝ),
      (∀ q ∈ observedDims X, axesFor metric ⟨storeWeight metric (P.mp.getD {}), some (metric, (observedDims X).zip L)⟩ q = .ok (ax q) ∧
        CellSize metric X (observedDims X) q (asVectorizer P).nBins (cell q) ∧ 0 ≤ cell q ∧
        factor E metric ((P.mp.getD {}).p.getD (some 2)) (ax q) = some (cell q ^ exponent metric (pOf P)) ∧ ∀ D, (vec q D).length = len q) ∧
      (∀ q ∈ observedDims X, ∀ Y : List (List (Pt ℝ Q)), Y ≠ [] → (∀ D ∈ Y, D ∈ Defined P metric (observedDims X)) → EqualCounts Y q →
        vecs E metric (storeWeight metric (P.mp.getD {})) (ax q) (Y.map fun D => pointsIn D q) = .ok (Y.map fun D => (vec q (pointsIn D q)).map some)) ∧
      (metric = .landscape → ∀ q ∈ observedDims X, ∀ D, vec q D = layerVec (ax q).1.1 (asVectorizer P).nLayers D) ∧
      (metric = .betti ∨ metric = .landscape ∨ metric = .silhouette → ∀ q ∈ observedDims X, Grid X (observedDims X) q (asVectorizer P).nBins (ax q).1.1 (cell q) ∧
        ∀ D, vec q D = curveVec metric P (ax q).1.1 D) ∧
      ∀ nJobs, 1 ≤ nJobs → ∀ X', Valid X' → (∀ q ∈ observedDims X, EqualCounts X' q) → (∀ D ∈ X', D ∈ Defined P metric (observedDims X)) →
        ∃ R, Gtda.Vectorizers.transform E.toEngine kind nJobs X' (Gtda.Vectorizers.fit kind X v).1 = .ok R ∧
          ∀ (i k : Nat) D q, X'[i]? = some D → (observedDims X)[k]? = some q → vectorOf (asVectorizer P).nLayers R i k = some ((vec q (pointsIn D q)).map some) := by
  obtain ⟨hval, hl, hs, hpw⟩ := asVectorizer_valid c P metric kind hP
  have hp1 := pOf_one_le c P metric hP
  have hp0 : 0 < toP ((P.mp.getD {}).p.getD (some 2)) := by rw [pOf_eq]; exact lt_of_lt_of_le one_pos hp1
  rw [← hv] at hb hval
  obtain ⟨hne, hEX, -⟩ := training_dims X hT
  have hexp := exponent_eq metric _ hp0
  rw [pOf_eq] at hexp
  have hcurve : ∀ (q : Q) (step : ℝ) (s : List ℝ), metric ≠ .image → Grid X (observedDims X) q v.params.nBins s step → CellSize metric X (observedDims X) q (asVectorizer P).nBins step ∧ 0 ≤ step := by
    intro q step s hi hg
    unfold CellSize
    rw [if_neg hi, ← hv]
    refine ⟨⟨_, hg⟩, ?_⟩
    obtain ⟨_, _, _, _, _, _, h, _⟩ := hg
    exact h
  have hfac : ∀ (ax : Axes ℝ) (step : ℝ), metric ≠ .image → ax.1.2 = some step → factor E metric ((P.mp.getD {}).p.getD (some 2)) ax = some (step ^ exponent metric (pOf P)) := by
    intro ax step hi h
    unfold factor
    rw [hexp]
    cases metric
    case image => exact absurd rfl hi
    all_goals
      dsimp only
      rw [h, Option.map_some, hE.pow]
  have hentry : metric.isCurve = true ∨ metric = .image := by cases metric <;> first | (cases hk; done) | simp [Metric.isCurve]
  have haxes : ∀ q, axesFor metric (⟨storeWeight metric (P.mp.getD {}), some (metric, (observedDims X).zip L)⟩ : Eff ℝ Q) q = entryOf (some ((observedDims X).zip L)) q := by
    intro q
    unfold axesFor
    dsimp only
    rw [if_pos ⟨rfl, hentry⟩]
  cases metric with
  | bottleneck => cases hk
  | wasserstein => cases hk
  | betti =>
    cases hk
    rw [← hv] at hL
    obtain ⟨hok, ⟨w, hfit⟩, hax⟩ := fitted_axes .betti (by decide) v X hb hT hval L hL
    refine ⟨hok, fun q => axesOf (observedDims X) L q, fun q D => (axesOf (observedDims X) L q).1.1.map fun x => (aliveCount x D : ℝ), fun q => (axesOf (observedDims X) L q).1.1.length,
      fun q => ((axesOf (observedDims X) L q).1.2).getD 0, ?_, ?_, ?_, ?_, ?_⟩
    · intro q hq
      obtain ⟨a1, step, a2, a3⟩ := hax q hq
      dsimp only
      refine ⟨by rw [haxes, a1], ?_⟩
      rw [a2]
      obtain ⟨b1, b2⟩ := hcurve q step _ (by decide) a3
      exact ⟨b1, b2, hfac _ step (by decide) a2, fun D => by simp⟩
    · intro q hq Y _ _ _
      simp [vecs, bettiCurves_eq, Function.comp_def]
    · intro h; cases h
    · intro _ q hq
      obtain ⟨a1, step, a2, a3⟩ := hax q hq
      dsimp only
      rw [a2]
      exact ⟨by rw [← hv]; exact a3, fun D => rfl⟩
    · intro nJobs hn X' hX' hEc _
      have htr : Gtda.Vectorizers.transform E.toEngine .betti nJobs X' (Gtda.Vectorizers.fit .betti X v).1 =
          .ok (.counts (X'.map fun D => (observedDims X).map fun q => (axesOf (observedDims X) L q).1.1.map fun x => aliveCount x (pointsIn D q))) := by
        rw [hfit]
        unfold Gtda.Vectorizers.transform
        dsimp only
        rw [(check_ok_iff X').mpr hX']
        simp only [ok_bind]
        rw [perDim_eq _ (fun q D => (axesOf (observedDims X) L q).1.1.map fun x => aliveCount x D) _ nJobs hn hne X' hX'.1 hEc]
        · rfl
        · intro q hq Y _ _
          rw [(hax q hq).1, ok_bind, bettiCurves_eq, List.map_map]
          rfl
      refine ⟨_, htr, ?_⟩
      intro i k D q h1 h2
      simp [vectorOf, entry2, h1, h2, Function.comp_def]
  | landscape =>
    cases hk
    rw [← hv] at hL
    obtain ⟨hok, ⟨w, hfit⟩, hax⟩ := fitted_axes .landscape (by decide) v X hb hT hval L hL
    refine ⟨hok, fun q => axesOf (observedDims X) L q, fun q D => layerVec (axesOf (observedDims X) L q).1.1 (asVectorizer P).nLayers D,
      fun q => (asVectorizer P).nLayers * (axesOf (observedDims X) L q).1.1.length, fun q => ((axesOf (observedDims X) L q).1.2).getD 0, ?_, ?_, ?_, ?_, ?_⟩
    · intro q hq
      obtain ⟨a1, step, a2, a3⟩ := hax q hq
      dsimp only
      refine ⟨by rw [haxes, a1], ?_⟩
      rw [a2]
      obtain ⟨b1, b2⟩ := hcurve q step _ (by decide) a3
      exact ⟨b1, b2, hfac _ step (by decide) a2, fun D => layerVec_length _ _ _⟩
    · intro q hq Y hY _ hEq
      obtain ⟨m₁, hm1⟩ := pointsIn_length_of_equalCounts Y q hY hEq
      unfold vecs
      dsimp only
      rw [(storeWeight_fields _ _).2.2.1]
      have := flatLandscapes_eq (Y.map fun D => pointsIn D q) (axesOf (observedDims X) L q).1.1 ((P.mp.getD {}).nLayers.getD 1) m₁ hm1
      have h2 : ((landscapes (Y.map fun D => pointsIn D q) (axesOf (observedDims X) L q).1.1 ((P.mp.getD {}).nLayers.getD 1)).map fun I => I.flatten.map some) =
          (flatLandscapes (Y.map fun D => pointsIn D q) (axesOf (observedDims X) L q).1.1 ((P.mp.getD {}).nLayers.getD 1)).map fun u => u.map some := by
        unfold flatLandscapes
        rw [List.map_map]
        rfl
      rw [h2, this, asVectorizer_eq, List.map_map, List.map_map]
      rfl
    · intro _ q _ D; rfl
    · intro _ q hq
      obtain ⟨a1, step, a2, a3⟩ := hax q hq
      dsimp only
      rw [a2]
      exact ⟨by rw [← hv]; exact a3, fun D => rfl⟩
    · intro nJobs hn X' hX' hEc _
      have htr := landscape_eq E.toEngine v.params (observedDims X) (fun q => axesOf (observedDims X) L q) ((observedDims X).zip L) w v.params.nBins hne (fun q hq => (hax q hq).1)
        (fun q hq => by obtain ⟨-, step, -, h⟩ := hax q hq; exact grid_length h) (by rw [hv]; exact hl) nJobs hn X' hX' hEc
      rw [if_pos rfl] at htr
      have hR : landscapeTransform (observedDims X) (fun q => (axesOf (observedDims X) L q).1.1) v.params.nLayers nJobs X' =
          .ok (X'.map fun D => ((observedDims X).map fun q => (List.range v.params.nLayers).map fun k => (axesOf (observedDims X) L q).1.1.map fun s => layerAt (pointsIn D q) k s).flatten) := by
        unfold landscapeTransform
        rw [perDim_eq _ (fun q D => (List.range v.params.nLayers).map fun k => (axesOf (observedDims X) L q).1.1.map fun s => layerAt D k s) _ nJobs hn hne X' hX'.1 hEc]
        · rw [ok_bind, List.map_map]
          rfl
        · intro q hq Y hY hsub
          obtain ⟨m₁, hm1⟩ := pointsIn_length_of_equalCounts Y q hY (equalCounts_sub X' Y q (hEc q hq) hsub)
          rw [landscapes_eq _ _ _ m₁ hm1, List.map_map]
          rfl
      rw [hR] at htr
      rw [hfit]
      refine ⟨_, htr, ?_⟩
      intro i k D q h1 h2
      unfold vectorOf
      dsimp only
      rw [List.getElem?_map, h1, Option.map_some, Option.map_some, Option.some.injEq]
      congr 1
      rw [← hv]
      unfold layerVec
      congr 1
      exact drop_take_flatten (fun q => (List.range v.params.nLayers).map fun k => (axesOf (observedDims X) L q).1.1.map fun s => layerAt (pointsIn D q) k s) v.params.nLayers
        (fun _ => by simp) _ k q h2
  | heat =>
    cases hk
    rw [← hv] at hL
    obtain ⟨hok, ⟨w, hfit⟩, hax⟩ := fitted_axes .heat (by decide) v X hb hT hval L hL
    have hit : ∀ q ∈ observedDims X, ∀ D : List (Pt ℝ Q), ∃ H, heatItem E.toEngine v.params.sigma (axesOf (observedDims X) L q).1 D = .ok (Gtda.Vectorizers.noNaN H) ∧
        SquareImage v.params.nBins H := by
      intro q hq D
      obtain ⟨-, step, h1, lo, hi, last, h2, h3, h4, h5, h6⟩ := hax q hq
      obtain ⟨H, -, a2, -⟩ := heatItem_ok E.toEngine hE.size v.params.sigma _ step v.params.nBins hb lo last h5 h4 D
      have : (axesOf (observedDims X) L q).1 = ((axesOf (observedDims X) L q).1.1, some step) := by rw [← h1]
      rw [this]
      obtain ⟨H', hH', hsq, -⟩ := C30_heat_antisymmetric (E.smooth (pixelSigma v.params.sigma step v.params.nBins) (pixelSigma v.params.sigma step v.params.nBins)) _ v.params.nBins lo last step hb h5 h4
        (hE.size _ _ _) D
      refine ⟨H', ?_, hsq⟩
      unfold heatItem
      dsimp only
      rw [h4.1]
      unfold pixelSigma at hH'
      rw [hH']
      rfl
    obtain ⟨g, hg⟩ := choose_images (observedDims X) _ hit
    refine ⟨hok, fun q => axesOf (observedDims X) L q, fun q D => (g q D).flatten, fun _ => v.params.nBins * v.params.nBins, fun q => ((axesOf (observedDims X) L q).1.2).getD 0, ?_, ?_, ?_, ?_, ?_⟩
    · intro q hq
      obtain ⟨a1, step, a2, a3⟩ := hax q hq
      dsimp only
      refine ⟨by rw [haxes, a1], ?_⟩
      rw [a2]
      obtain ⟨b1, b2⟩ := hcurve q step _ (by decide) a3
      exact ⟨b1, b2, hfac _ step (by decide) a2, fun D => flatten_square (hg q hq D).2⟩
    · intro q hq Y hY _ hEq
      unfold vecs
      dsimp only
      rw [(storeWeight_fields _ _).2.2.2.1]
      have hsig : (P.mp.getD {}).sigma.getD (1 / 10) = v.params.sigma := by rw [hv, asVectorizer_eq]
      rw [hsig, mapM_ok (g := fun D => Gtda.Vectorizers.noNaN (g q D)) (fun D _ => (hg q hq D).1), ok_bind, List.map_map, List.map_map]
      congr 1
      apply List.map_congr_left
      intro D _
      exact flatten_noNaN _
    · intro h; cases h
    · intro h; rcases h with h | h | h <;> cases h
    · intro nJobs hn X' hX' hEc _
      have htr : Gtda.Vectorizers.transform E.toEngine .heat nJobs X' (Gtda.Vectorizers.fit .heat X v).1 =
          .ok (.images (X'.map fun D => (observedDims X).map fun q => Gtda.Vectorizers.noNaN (g q (pointsIn D q)))) := by
        rw [hfit]
        unfold Gtda.Vectorizers.transform
        dsimp only
        rw [(check_ok_iff X').mpr hX']
        simp only [ok_bind]
        rw [← bind_assoc, perDim_congr _ (fun q Y => Y.mapM (heatItem E.toEngine v.params.sigma (axesOf (observedDims X) L q).1)) _ _ _ (fun q hq Y => by rw [(hax q hq).1]; rfl),
          images_eq _ (fun q D => Gtda.Vectorizers.noNaN (g q D)) (observedDims X) v.params.nBins v.params.nBins nJobs X' hn hne hX'.1 hEc ?_
            (fun q hq D _ => squareImage_noNaN (hg q hq _).2), if_pos rfl]
        · rfl
        · intro q hq Y _ _
          rw [mapM_ok (g := fun D => Gtda.Vectorizers.noNaN (g q D)) (fun D _ => (hg q hq D).1), List.map_map]
          rfl
      refine ⟨_, htr, ?_⟩
      intro i k D q h1 h2
      simp [vectorOf, entry2, h1, h2, flatten_noNaN]
  | image =>
    cases hk
    rw [← hv] at hL
    obtain ⟨hok, ⟨w, hfit, hw⟩, hax⟩ := fitted_axes_image v X hb hT hval L hL
    have hit : ∀ q ∈ observedDims X, ∀ D : List (Pt ℝ Q), ∃ H, imageItem E.toEngine v.params.sigma (axesOf (observedDims X) L q)
        ((axesOf (observedDims X) L q).2.1.map (Gtda.Vectorizers.effectiveWeight v.params)) D = .ok (Gtda.Vectorizers.noNaN H) ∧ SquareImage v.params.nBins H := by
      intro q hq D
      obtain ⟨-, st₀, st₁, h1, ⟨lo, hi, last, _, _, h2, h3, _⟩, lo', hi', last', _, _, h4, h5, _⟩ := hax q hq
      obtain ⟨H, hH, hsq⟩ := imageOne_fitted (E.smooth (v.params.sigma / st₀) (v.params.sigma / st₁)) v.params.nBins (hE.size _ _ _) (axesOf (observedDims X) L q).1.1 (axesOf (observedDims X) L q).2.1
        st₀ st₁ lo last lo' last' hb h3 h5 h2 h4 ((axesOf (observedDims X) L q).2.1.map (Gtda.Vectorizers.effectiveWeight v.params)) (by rw [List.length_map]; exact h4.1) D
      refine ⟨H, ?_, hsq⟩
      generalize axesOf (observedDims X) L q = A at h1 hH
      rw [h1]
      unfold imageItem
      dsimp only
      rw [hH]
      rfl
    obtain ⟨g, hg⟩ := choose_images (observedDims X) _ hit
    refine ⟨hok, fun q => axesOf (observedDims X) L q, fun q D => (g q D).flatten, fun _ => v.params.nBins * v.params.nBins,
      fun q => ((axesOf (observedDims X) L q).1.2).getD 0 * ((axesOf (observedDims X) L q).2.2).getD 0, ?_, ?_, ?_, ?_, ?_⟩
    · intro q hq
      obtain ⟨a1, st₀, st₁, a2, a3, a4⟩ := hax q hq
      dsimp only
      refine ⟨by rw [haxes, a1], ?_⟩
      have e1 : (axesOf (observedDims X) L q).1.2 = some st₀ := by rw [a2]
      have e2 : (axesOf (observedDims X) L q).2.2 = some st₁ := by rw [a2]
      rw [e1, e2]
      refine ⟨?_, ?_, ?_, fun D => flatten_square (hg q hq D).2⟩
      · unfold CellSize
        rw [if_pos rfl, ← hv]
        exact ⟨_, _, _, _, a3, a4, rfl⟩
      · obtain ⟨_, _, _, _, _, _, h, _⟩ := a3
        obtain ⟨_, _, _, _, _, _, h', _⟩ := a4
        exact mul_nonneg h h'
      · unfold factor
        dsimp only
        rw [e1, e2, hexp]
        simp only [Option.bind_eq_bind, Option.bind_some, hE.pow]
        rfl
    · intro q hq Y hY _ hEq
      unfold vecs
      dsimp only
      rw [(storeWeight_fields _ _).2.2.2.1, storeWeight_image]
      have hsig : (P.mp.getD {}).sigma.getD (1 / 10) = v.params.sigma := by rw [hv, asVectorizer_eq]
      rw [hsig, ← hv, mapM_ok (g := fun D => Gtda.Vectorizers.noNaN (g q D)) (fun D _ => (hg q hq D).1), ok_bind, List.map_map, List.map_map]
      congr 1
      apply List.map_congr_left
      intro D _
      exact flatten_noNaN _
    · intro h; cases h
    · intro h; rcases h with h | h | h <;> cases h
    · intro nJobs hn X' hX' hEc _
      have htr : Gtda.Vectorizers.transform E.toEngine .image nJobs X' (Gtda.Vectorizers.fit .image X v).1 =
          .ok (.images (X'.map fun D => (observedDims X).map fun q => Gtda.Vectorizers.noNaN (g q (pointsIn D q)))) := by
        rw [hfit]
        unfold Gtda.Vectorizers.transform
        dsimp only
        rw [(check_ok_iff X').mpr hX']
        simp only [ok_bind]
        rw [← bind_assoc, perDim_congr _ (fun q Y => Y.mapM (imageItem E.toEngine v.params.sigma (axesOf (observedDims X) L q)
            ((axesOf (observedDims X) L q).2.1.map (Gtda.Vectorizers.effectiveWeight v.params)))) _ _ _ (fun q hq Y => by rw [(hax q hq).1, hw q hq]; rfl),
          images_eq _ (fun q D => Gtda.Vectorizers.noNaN (g q D)) (observedDims X) v.params.nBins v.params.nBins nJobs X' hn hne hX'.1 hEc ?_
            (fun q hq D _ => squareImage_noNaN (hg q hq _).2), if_pos rfl]
        · rfl
        · intro q hq Y _ _
          rw [mapM_ok (g := fun D => Gtda.Vectorizers.noNaN (g q D)) (fun D _ => (hg q hq D).1), List.map_map]
          rfl
      refine ⟨_, htr, ?_⟩
      intro i k D q h1 h2
      simp [vectorOf, entry2, h1, h2, flatten_noNaN]
  | silhouette =>
    cases hk
    rw [← hv] at hL
    obtain ⟨hok, ⟨w, hfit⟩, hax⟩ := fitted_axes .silhouette (by decide) v X hb hT hval L hL
    have hpow : (P.mp.getD {}).power.getD 1 = (asVectorizer P).power := by rw [asVectorizer_eq]
    have hone : ∀ q ∈ observedDims X, ∀ Y : List (List (Pt ℝ Q)), (∀ D ∈ Y, D ∈ Defined P .silhouette (observedDims X)) →
        (Y.map fun D => pointsIn D q).mapM (silhouetteOne (fun x => E.pow x (asVectorizer P).power) (decide (8 < (asVectorizer P).power)) (axesOf (observedDims X) L q).1.1) =
          .ok (Y.map fun D => ((axesOf (observedDims X) L q).1.1.map (weightedTents (fun x => x ^ (asVectorizer P).power) (pointsIn D q))).map some) := by
      intro q hq Y hY
      have := silhouetteVecs_eq (asVectorizer P).power hpw (axesOf (observedDims X) L q).1.1 (observedDims X) q hq Y (fun D hD => ⟨(hY D hD).1, (hY D hD).2 rfl⟩)
      unfold silhouetteVecs at this
      simp only [hE.pow]
      rw [this, List.map_map]
      congr 1
      apply List.map_congr_left
      intro D _
      rw [List.map_map]
      rfl
    refine ⟨hok, fun q => axesOf (observedDims X) L q, fun q D => (axesOf (observedDims X) L q).1.1.map (weightedTents (fun x => x ^ (asVectorizer P).power) D),
      fun q => (axesOf (observedDims X) L q).1.1.length, fun q => ((axesOf (observedDims X) L q).1.2).getD 0, ?_, ?_, ?_, ?_, ?_⟩
    · intro q hq
      obtain ⟨a1, step, a2, a3⟩ := hax q hq
      dsimp only
      refine ⟨by rw [haxes, a1], ?_⟩
      rw [a2]
      obtain ⟨b1, b2⟩ := hcurve q step _ (by decide) a3
      exact ⟨b1, b2, hfac _ step (by decide) a2, fun D => by simp⟩
    · intro q hq Y hY hdef hEq
      unfold vecs
      dsimp only
      rw [(storeWeight_fields _ _).2.2.2.2.1, hpow]
      exact hone q hq Y hdef
    · intro h; cases h
    · intro _ q hq
      obtain ⟨a1, step, a2, a3⟩ := hax q hq
      dsimp only
      rw [a2]
      exact ⟨by rw [← hv]; exact a3, fun D => rfl⟩
    · intro nJobs hn X' hX' hEc hdef
      have htr : Gtda.Vectorizers.transform E.toEngine .silhouette nJobs X' (Gtda.Vectorizers.fit .silhouette X v).1 =
          .ok (.curves (X'.map fun D => (observedDims X).map fun q => ((axesOf (observedDims X) L q).1.1.map (weightedTents (fun x => x ^ (asVectorizer P).power) (pointsIn D q))).map some)) := by
        rw [hfit]
        unfold Gtda.Vectorizers.transform
        dsimp only
        rw [(check_ok_iff X').mpr hX']
        simp only [ok_bind]
        rw [perDim_eq _ (fun q D => ((axesOf (observedDims X) L q).1.1.map (weightedTents (fun x => x ^ (asVectorizer P).power) D)).map some) _ nJobs hn hne X' hX'.1 hEc]
        · rfl
        · intro q hq Y _ hsub
          rw [(hax q hq).1, ok_bind, hv]
          exact hone q hq Y (fun D hD => hdef D (hsub D hD))
      refine ⟨_, htr, ?_⟩
      intro i k D q h1 h2
      simp [vectorOf, entry2, h1, h2]

theorem squarePdist_map {V R R' : Type} (zero : R) (d : V → V → R) (g : R → R') (A : List V) :
    squarePdist (g zero) (fun a b => g (d a b)) A = (squarePdist zero d A).map fun r => r.map g := by
  unfold squarePdist
  rw [List.map_map]
  apply List.map_congr_left
  intro i _
  simp only [Function.comp]
  rw [List.map_filterMap]
  congr 1
  funext j
  cases A[i]? with
  | none => rfl
  | some a =>
    cases A[j]? with
    | none => rfl
    | some b =>
      simp only [Option.bind_eq_bind, Option.bind_some, Option.map_some]
      split_ifs <;> rfl

theorem vecDist_some (E : Engine ℝ Q) (hE : RealEngine E) (p : Option ℝ) (hp : 0 < toP p) (c : ℝ) (u v : List ℝ) : vecDist E p (some c) (u.map some) (v.map some) = some (minkowski (toP p) c u v) := by
  unfold vecDist liftNan₂
  rw [mapM_id_some, mapM_id_some]
  simp only [Option.bind_some, Option.bind_eq_bind]
  rw [hE.norm p _ hp, ← pNorm_eq _ hp]
  rfl

theorem landscapeMetric_eq (E : Engine ℝ Q) (hE : RealEngine E) (p : Option ℝ) (hp : 0 < toP p) (c : ℝ) (s : List ℝ) (n : Nat) (Y₁ Y₂ : List (List (Pt ℝ Q))) :
    landscapeMetric E p (some c) s n Y₁ Y₂ = (landscapeDistances (minkowski (toP p) c) s n Y₁ Y₂).map fun r => r.map some := by
  unfold landscapeMetric landscapeDistances
  dsimp only
  simp only [vecDist_some E hE p hp]
  split_ifs
  · exact squarePdist_map 0 (minkowski (toP p) c) some _
  · rw [List.map_map]
    apply List.map_congr_left
    intro a _
    simp only [Function.comp]
    rw [List.map_map]
    rfl

/-- One block of distances for a metric based on vectors. -/
theorem metricFn_eq (E : Engine ℝ Q) (hE : RealEngine E) (metric : Metric) (kind : Kind) (hk : vectorizer metric = some kind) (eff : Eff ℝ Q) (q : Q) (ax : Axes ℝ) (c : ℝ)
    (vec : List (Pt ℝ Q) → List ℝ) (hp : 0 < toP (eff.mp.p.getD (some 2))) (hax : axesFor metric eff q = .ok ax) (hc : factor E metric (eff.mp.p.getD (some 2)) ax = some c)
    (Y₁ Y₂ : List (List (Pt ℝ Q))) (h1 : Y₁ ≠ []) (h2 : Y₂ ≠ []) (hE1 : EqualCounts Y₁ q) (hE2 : EqualCounts Y₂ q)
    (hv1 : vecs E metric eff.mp ax (Y₁.map fun D => pointsIn D q) = .ok (Y₁.map fun D => (vec (pointsIn D q)).map some))
    (hv2 : vecs E metric eff.mp ax (Y₂.map fun D => pointsIn D q) = .ok (Y₂.map fun D => (vec (pointsIn D q)).map some))
    (hl : metric = .landscape → ∀ D, vec D = layerVec ax.1.1 (eff.mp.nLayers.getD 1) D) :
    metricFn E metric eff q (Y₁.map fun D => pointsIn D q) (Y₂.map fun D => pointsIn D q) =
      .ok (Y₁.map fun D => Y₂.map fun D' => some (minkowski (toP (eff.mp.p.getD (some 2))) c (vec (pointsIn D q)) (vec (pointsIn D' q)))) := by
  have hgen : metric ≠ .landscape → batchDistances (some 0) (vecs E metric eff.mp ax) (vecDist E (eff.mp.p.getD (some 2)) (some c)) (Y₁.map fun D => pointsIn D q) (Y₂.map fun D => pointsIn D q) =
      .ok (Y₁.map fun D => Y₂.map fun D' => some (minkowski (toP (eff.mp.p.getD (some 2))) c (vec (pointsIn D q)) (vec (pointsIn D' q)))) := by
    intro _
    rw [batchDistances_eq (some 0) _ (fun D => (vec D).map some) _ _ _ (by rw [hv1, List.map_map]; rfl) (by rw [hv2, List.map_map]; rfl)]
    · simp [Function.comp_def, vecDist_some E hE _ hp]
    · intro a _ b _
      rw [vecDist_some E hE _ hp, vecDist_some E hE _ hp]
      unfold minkowski
      rw [pNorm_sub_symm]
    · intro a _
      rw [vecDist_some E hE _ hp]
      unfold minkowski
      rw [lpDist_eq_norm _ hp _ _ rfl, lpDist_self _ hp, zero_mul]
  cases metric with
  | bottleneck => cases hk
  | wasserstein => cases hk
  | landscape =>
    unfold metricFn
    dsimp only
    rw [hax, ok_bind, hc, landscapeMetric_eq E hE _ hp]
    obtain ⟨m₁, hm1⟩ := pointsIn_length_of_equalCounts Y₁ q h1 hE1
    obtain ⟨m₂, hm2⟩ := pointsIn_length_of_equalCounts Y₂ q h2 hE2
    rw [landscapeDistances_eq _ hp c ax.1.1 (eff.mp.nLayers.getD 1) _ _ m₁ m₂ (by simpa using h1) (by simpa using h2) hm1 hm2]
    simp only [List.map_map, Function.comp_def, hl rfl]
  | betti =>
    unfold metricFn
    dsimp only
    rw [hax, ok_bind, hc]
    exact hgen (by decide)
  | heat =>
    unfold metricFn
    dsimp only
    rw [hax, ok_bind, hc]
    exact hgen (by decide)
  | image =>
    unfold metricFn
    dsimp only
    rw [hax, ok_bind, hc]
    exact hgen (by decide)
  | silhouette =>
    unfold metricFn
    dsimp only
    rw [hax, ok_bind, hc]
    exact hgen (by decide)

/-- One block of amplitudes for a metric based on vectors. -/
theorem amplitudeFn_eq (E : Engine ℝ Q) (hE : RealEngine E) (metric : Metric) (kind : Kind) (hk : vectorizer metric = some kind) (eff : Eff ℝ Q) (q : Q) (ax : Axes ℝ) (c : ℝ)
    (vec : List (Pt ℝ Q) → List ℝ) (hp : 0 < toP (eff.mp.p.getD (some 2))) (hax : axesFor metric eff q = .ok ax) (hc : factor E metric (eff.mp.p.getD (some 2)) ax = some c)
    (Y : List (List (Pt ℝ Q)))
    (hv : vecs E metric eff.mp ax (Y.map fun D => pointsIn D q) = .ok (Y.map fun D => (vec (pointsIn D q)).map some)) :
    amplitudeFn E metric eff q (Y.map fun D => pointsIn D q) = .ok (Y.map fun D => some (lpNorm (toP (eff.mp.p.getD (some 2))) (vec (pointsIn D q)) * c)) := by
  have hgen : batchAmplitudes (vecs E metric eff.mp ax) (fun v => (factor E metric (eff.mp.p.getD (some 2)) ax).bind fun c => liftNan (fun a => E.norm (eff.mp.p.getD (some 2)) a * c) v)
      (Y.map fun D => pointsIn D q) = .ok (Y.map fun D => some (lpNorm (toP (eff.mp.p.getD (some 2))) (vec (pointsIn D q)) * c)) := by
    unfold batchAmplitudes
    rw [hv, ok_bind, hc, List.map_map]
    congr 1
    apply List.map_congr_left
    intro D _
    simp only [Function.comp, Option.bind_some, liftNan, mapM_id_some, Option.map_some, hE.norm _ _ hp]
  cases metric with
  | bottleneck => cases hk
  | wasserstein => cases hk
  | betti => unfold amplitudeFn; dsimp only; rw [hax, ok_bind]; exact hgen
  | landscape => unfold amplitudeFn; dsimp only; rw [hax, ok_bind]; exact hgen
  | heat => unfold amplitudeFn; dsimp only; rw [hax, ok_bind]; exact hgen
  | image => unfold amplitudeFn; dsimp only; rw [hax, ok_bind]; exact hgen
  | silhouette => unfold amplitudeFn; dsimp only; rw [hax, ok_bind]; exact hgen

end

end Gtda.Props.DiagramMetrics

namespace Gtda.Props
open Gtda.Py Gtda.Parallel Gtda.Diagrams Gtda.DiagramMetrics Gtda.Spec.DiagramMetrics Gtda.Spec.Vectorizers
open Gtda.Vectorizers (Axes check observedDims heatItem imageItem entryOf Kind)
open Gtda.Props.DiagramMetrics

/-! ### Metrics based on vectors -/

section
variable {Q : Type} [LinearOrder Q]
open Gtda.Props.Vectorizers (axesOf axesOf_spec check_ok_iff observedDims_spec training_dims perDim_congr)

theorem order_pos (c : Cls) (P : Params ℝ) (metric : Metric) (hP : ValidParams c P metric) (o : Option ℝ) (ho : P.order = some o) : 0 < toP o := by
  cases o with
  | none => exact ENNReal.zero_lt_top
  | some x => exact ENNReal.ofReal_pos.mpr (hP.order x ho)

theorem lift_some (E : Engine ℝ Q) (hE : RealEngine E) (o : Option ℝ) (ho : 0 < toP o) {α : Type} (l : List α) (f : α → ℝ) :
    liftNan (E.norm o) (l.map fun a => some (f a)) = some (lpNorm (toP o) (l.map f)) := by
  have : (l.map fun a => some (f a)) = (l.map f).map some := by rw [List.map_map]; rfl
  rw [this, liftNan, mapM_id_some, Option.map_some, hE.norm _ _ ho]

/-- The output of a fitted `PairwiseDistance` in terms of the vectors of `core`. -/
theorem distance_eq (E : Engine ℝ Q) (hE : RealEngine E) (e : Est ℝ Q) (metric : Metric) (kind : Kind) (hP : ValidParams .distance e.params metric) (hk : vectorizer metric = some kind)
    (hb : 2 ≤ (asVectorizer e.params).nBins) (X : List (List (Pt ℝ Q))) (hT : Training X) (v : Gtda.Vectorizers.Est ℝ Q) (hv : v.params = asVectorizer e.params) :
    (fit .distance X e).2 = .ok () ∧ (Gtda.Vectorizers.fit kind X v).2 = .ok () ∧ ∃ (vec : Q → List (Pt ℝ Q) → List ℝ) (len : Q → Nat) (cell : Q → ℝ),
      (∀ q ∈ observedDims X, CellSize metric X (observedDims X) q (asVectorizer e.params).nBins (cell q) ∧ 0 ≤ cell q ∧ ∀ D, (vec q D).length = len q) ∧
      (metric = .betti ∨ metric = .landscape ∨ metric = .silhouette → ∀ q ∈ observedDims X, ∃ s, Grid X (observedDims X) q (asVectorizer e.params).nBins s (cell q) ∧
        ∀ D, vec q D = curveVec metric e.params s D) ∧
      (∀ nJobs, 1 ≤ nJobs → ∀ X', Valid X' → (∀ q ∈ observedDims X, EqualCounts X' q) → (∀ D ∈ X', D ∈ Defined e.params metric (observedDims X)) →
        ∃ R, Gtda.Vectorizers.transform E.toEngine kind nJobs X' (Gtda.Vectorizers.fit kind X v).1 = .ok R ∧
          ∀ (i k : Nat) D q, X'[i]? = some D → (observedDims X)[k]? = some q → vectorOf (asVectorizer e.params).nLayers R i k = some ((vec q (pointsIn D q)).map some)) ∧
      ∀ nJobs, 1 ≤ nJobs → ∀ X', Valid X' → (∀ q ∈ observedDims X, EqualCounts X' q) → (∀ D ∈ X', D ∈ Defined e.params metric (observedDims X)) →
        (∀ D ∈ X, D ∈ Defined e.params metric (observedDims X)) →
        transformDistance E nJobs X' (fit .distance X e).1 = .ok (distanceResult e.params.order (X'.map fun D => X.map fun D' => (observedDims X).map fun q =>
          minkowski (pOf e.params) (cell q ^ exponent metric (pOf e.params)) (vec q (pointsIn D q)) (vec q (pointsIn D' q)))) := by
  have hok := fit_training .distance X e metric hT hP
  obtain ⟨hne, hEX, -⟩ := training_dims X hT
  obtain ⟨-, metric', L, hP', hL, hfit⟩ := fit_success .distance X e hok
  have : metric' = metric := by have := hP'.known.symm.trans hP.known; exact Option.some.inj this
  subst this
  have hnb : (e.params.mp.getD {}).nBins.getD 100 = (asVectorizer e.params).nBins := by rw [asVectorizer_eq]
  rw [hnb] at hL
  obtain ⟨hvok, ax, vec, len, cell, h1, h2, h3, h5, h4⟩ := core E hE .distance e.params metric' kind hP hk X hT hb v hv L hL
  have hf := storeWeight_fields metric' (e.params.mp.getD {})
  have hp0 : 0 < toP ((storeWeight metric' (e.params.mp.getD {})).p.getD (some 2)) := by
    rw [hf.1, pOf_eq]
    exact lt_of_lt_of_le one_pos (pOf_one_le _ _ _ hP)
  refine ⟨hok, hvok, vec, len, cell, fun q hq => ?_, fun hc q hq => ⟨_, h5 hc q hq⟩, h4, ?_⟩
  · obtain ⟨-, a, b, -, c⟩ := h1 q hq
    exact ⟨a, b, c⟩
  · intro nJobs hn X' hX' hE' hD' hD
    rw [hfit]
    unfold transformDistance
    dsimp only
    rw [(check_ok_iff X').mpr hX', if_pos rfl]
    simp only [ok_bind, attr, recipe, hP.known]
    rw [parallelPairwise_eq _ (fun q D D' => some (minkowski (pOf e.params) (cell q ^ exponent metric' (pOf e.params)) (vec q D) (vec q D'))) X' X (observedDims X) nJobs hn hne hX'.1 hT.1.1 hE' hEX]
    · simp only [ok_bind]
      cases ho : e.params.order with
      | none =>
        unfold distanceResult
        simp only [List.map_map, Function.comp_def]
      | some o =>
        unfold distanceResult
        simp only [List.map_map, Function.comp_def]
        simp only [lift_some E hE o (order_pos _ _ _ hP o ho)]
    · intro q hq Y hY hsub
      obtain ⟨a1, -, -, a4, -⟩ := h1 q hq
      have hs : ∀ D ∈ Y, D ∈ Defined e.params metric' (observedDims X) := fun D h => hD D (hsub D h)
      have hEY := equalCounts_sub X Y q (hEX q hq) hsub
      rw [metricFn_eq E hE metric' kind hk _ q (ax q) _ (vec q) hp0 a1 (by rw [hf.1]; exact a4) X' Y hX'.1 hY (hE' q hq) hEY (h2 q hq X' hX'.1 hD' (hE' q hq)) (h2 q hq Y hY hs hEY)
        (fun hl D => by rw [h3 hl q hq D, hf.2.2.1, asVectorizer_eq])]
      rw [hf.1, pOf_eq]

/-- **C114**, distances based on vectors (`betti`, `landscape`, `silhouette`, `heat`, `persistence_image`): whatever happened to the object before, `fit` on a training collection succeeds. `transform`
afterwards outputs at `[i, j, k]` the distance of order `p` between two vectors times a power of the size of a cell of the grid. The vectors are those which the corresponding vector representation
(with corresponding parameters, fitted on the same collection) outputs for diagram `i` of the transformed and diagram `j` of the training collection. With `order`, norms over the dimensions are returned. -/
theorem C114_distance (E : Engine ℝ Q) (hE : RealEngine E) (e : Est ℝ Q) (metric : Metric) (kind : Kind) (hP : ValidParams .distance e.params metric) (hk : vectorizer metric = some kind)
    (hb : 2 ≤ (asVectorizer e.params).nBins) (X : List (List (Pt ℝ Q))) (hT : Training X) (v : Gtda.Vectorizers.Est ℝ Q) (hv : v.params = asVectorizer e.params) :
    (fit .distance X e).2 = .ok () ∧ (Gtda.Vectorizers.fit kind X v).2 = .ok () ∧ ∃ (dims : List Q) (cell : Q → ℝ), DimsOfFirst dims X ∧
      (∀ q ∈ dims, CellSize metric X dims q (asVectorizer e.params).nBins (cell q)) ∧
      ∀ nJobs nJobs', 1 ≤ nJobs → 1 ≤ nJobs' → ∀ X', Valid X' → (∀ q ∈ dims, EqualCounts X' q) → (∀ D ∈ X', D ∈ Defined e.params metric dims) → (∀ D ∈ X, D ∈ Defined e.params metric dims) →
        ∃ A R R', transformDistance E nJobs X' (fit .distance X e).1 = .ok (distanceResult e.params.order A) ∧
          Gtda.Vectorizers.transform E.toEngine kind nJobs' X' (Gtda.Vectorizers.fit kind X v).1 = .ok R' ∧
          Gtda.Vectorizers.transform E.toEngine kind nJobs' X (Gtda.Vectorizers.fit kind X v).1 = .ok R ∧
          A.length = X'.length ∧ (∀ r ∈ A, r.length = X.length ∧ ∀ c ∈ r, c.length = dims.length) ∧
          ∀ (i j k : Nat) q, i < X'.length → j < X.length → dims[k]? = some q →
            ∃ a b : List ℝ, vectorOf (asVectorizer e.params).nLayers R' i k = some (a.map some) ∧ vectorOf (asVectorizer e.params).nLayers R j k = some (b.map some) ∧ a.length = b.length ∧
              entry3 A i j k = some (lpDist (pOf e.params) a b * cell q ^ exponent metric (pOf e.params)) := by
  obtain ⟨hok, hvok, vec, len, cell, h1, -, h2, h3⟩ := distance_eq E hE e metric kind hP hk hb X hT v hv
  obtain ⟨-, hEX, -⟩ := training_dims X hT
  refine ⟨hok, hvok, observedDims X, cell, observedDims_spec X, fun q hq => (h1 q hq).1, ?_⟩
  intro nJobs nJobs' hn hn' X' hX' hE' hD' hD
  obtain ⟨R', hR', hu⟩ := h2 nJobs' hn' X' hX' hE' hD'
  obtain ⟨R, hR, hw⟩ := h2 nJobs' hn' X hT.1 hEX hD
  refine ⟨_, R, R', h3 nJobs hn X' hX' hE' hD' hD, hR', hR, by simp, by simp, ?_⟩
  intro i j k q hi hj hk'
  have e1 := List.getElem?_eq_getElem hi
  have e2 := List.getElem?_eq_getElem hj
  have hq := List.mem_of_getElem? hk'
  have hl : (vec q (pointsIn X'[i] q)).length = (vec q (pointsIn X[j] q)).length := by rw [(h1 q hq).2.2, (h1 q hq).2.2]
  refine ⟨_, _, hu i k _ q e1 hk', hw j k _ q e2 hk', hl, ?_⟩
  simp only [entry3, List.getElem?_map, e1, e2, hk', Option.map_some, Option.bind_eq_bind, Option.bind_some]
  rw [minkowski_eq _ (lt_of_lt_of_le one_pos (pOf_one_le _ _ _ hP)) _ _ _ hl]

/-- **C114**, distances based on vectors: the output is a pseudometric on diagrams, in every dimension without `order`, and after taking norms if `order` is at least 1. -/
theorem C114_pseudometric (E : Engine ℝ Q) (hE : RealEngine E) (e : Est ℝ Q) (metric : Metric) (kind : Kind) (hP : ValidParams .distance e.params metric) (hk : vectorizer metric = some kind)
    (hb : 2 ≤ (asVectorizer e.params).nBins) (X : List (List (Pt ℝ Q))) (hT : Training X) :
    ∃ (dims : List Q) (δ : Q → List (Pt ℝ Q) → List (Pt ℝ Q) → ℝ), DimsOfFirst dims X ∧ (∀ q ∈ dims, PseudometricOn Set.univ (δ q)) ∧
      (∀ o, 1 ≤ toP o → PseudometricOn Set.univ fun D D' => lpNorm (toP o) (dims.map fun q => δ q D D')) ∧
      ∀ nJobs, 1 ≤ nJobs → ∀ X', Valid X' → (∀ q ∈ dims, EqualCounts X' q) → (∀ D ∈ X', D ∈ Defined e.params metric dims) → (∀ D ∈ X, D ∈ Defined e.params metric dims) →
        transformDistance E nJobs X' (fit .distance X e).1 = .ok (distanceResult e.params.order (X'.map fun D => X.map fun D' => dims.map fun q => δ q D D')) := by
  obtain ⟨-, -, vec, len, cell, h1, -, -, h3⟩ := distance_eq E hE e metric kind hP hk hb X hT (Gtda.Vectorizers.new (asVectorizer e.params)) rfl
  have hp1 := pOf_one_le _ _ _ hP
  have hps : ∀ q ∈ observedDims X, PseudometricOn Set.univ fun D D' : List (Pt ℝ Q) =>
      minkowski (pOf e.params) (cell q ^ exponent metric (pOf e.params)) (vec q (pointsIn D q)) (vec q (pointsIn D' q)) := by
    intro q hq
    exact minkowski_pseudo _ hp1 _ (Real.rpow_nonneg (h1 q hq).2.1 _) (fun D => vec q (pointsIn D q)) (len q) _ (fun D _ => (h1 q hq).2.2 _)
  exact ⟨observedDims X, _, observedDims_spec X, hps, fun o ho => lpNorm_pseudo (toP o) ho (observedDims X) _ _ hps, h3⟩

/-- The output of a fitted `Amplitude` in terms of the vectors of `core`. -/
theorem amplitude_eq (E : Engine ℝ Q) (hE : RealEngine E) (e : Est ℝ Q) (metric : Metric) (kind : Kind) (hP : ValidParams .amplitude e.params metric) (hk : vectorizer metric = some kind)
    (hb : 2 ≤ (asVectorizer e.params).nBins) (X : List (List (Pt ℝ Q))) (hT : Training X) (v : Gtda.Vectorizers.Est ℝ Q) (hv : v.params = asVectorizer e.params) :
    (fit .amplitude X e).2 = .ok () ∧ (Gtda.Vectorizers.fit kind X v).2 = .ok () ∧ ∃ (vec : Q → List (Pt ℝ Q) → List ℝ) (cell : Q → ℝ),
      (∀ q ∈ observedDims X, CellSize metric X (observedDims X) q (asVectorizer e.params).nBins (cell q)) ∧
      (metric = .betti ∨ metric = .landscape ∨ metric = .silhouette → ∀ q ∈ observedDims X, ∃ s, Grid X (observedDims X) q (asVectorizer e.params).nBins s (cell q) ∧
        ∀ D, vec q D = curveVec metric e.params s D) ∧
      (∀ nJobs, 1 ≤ nJobs → ∀ X', Valid X' → (∀ q ∈ observedDims X, EqualCounts X' q) → (∀ D ∈ X', D ∈ Defined e.params metric (observedDims X)) →
        ∃ R, Gtda.Vectorizers.transform E.toEngine kind nJobs X' (Gtda.Vectorizers.fit kind X v).1 = .ok R ∧
          ∀ (i k : Nat) D q, X'[i]? = some D → (observedDims X)[k]? = some q → vectorOf (asVectorizer e.params).nLayers R i k = some ((vec q (pointsIn D q)).map some)) ∧
      ∀ nJobs, 1 ≤ nJobs → ∀ X', Valid X' → (∀ q ∈ observedDims X, EqualCounts X' q) → (∀ D ∈ X', D ∈ Defined e.params metric (observedDims X)) →
        transformAmplitude E nJobs X' (fit .amplitude X e).1 = .ok (amplitudeResult e.params.order (X'.map fun D => (observedDims X).map fun q =>
          lpNorm (pOf e.params) (vec q (pointsIn D q)) * cell q ^ exponent metric (pOf e.params))) := by
  have hok := fit_training .amplitude X e metric hT hP
  obtain ⟨hne, hEX, -⟩ := training_dims X hT
  obtain ⟨-, metric', L, hP', hL, hfit⟩ := fit_success .amplitude X e hok
  have : metric' = metric := by have := hP'.known.symm.trans hP.known; exact Option.some.inj this
  subst this
  have hnb : (e.params.mp.getD {}).nBins.getD 100 = (asVectorizer e.params).nBins := by rw [asVectorizer_eq]
  rw [hnb] at hL
  obtain ⟨hvok, ax, vec, len, cell, h1, h2, h3, h5, h4⟩ := core E hE .amplitude e.params metric' kind hP hk X hT hb v hv L hL
  have hf := storeWeight_fields metric' (e.params.mp.getD {})
  have hp0 : 0 < toP ((storeWeight metric' (e.params.mp.getD {})).p.getD (some 2)) := by
    rw [hf.1, pOf_eq]
    exact lt_of_lt_of_le one_pos (pOf_one_le _ _ _ hP)
  refine ⟨hok, hvok, vec, cell, fun q hq => (h1 q hq).2.1, fun hc q hq => ⟨_, h5 hc q hq⟩, h4, ?_⟩
  intro nJobs hn X' hX' hE' hD'
  rw [hfit]
  unfold transformAmplitude
  dsimp only
  rw [(check_ok_iff X').mpr hX']
  simp only [ok_bind, attr, recipe, hP.known]
  unfold parallelAmplitude
  rw [perDim_eq _ (fun q D => some (lpNorm (pOf e.params) (vec q D) * cell q ^ exponent metric' (pOf e.params))) (observedDims X) nJobs hn hne X' hX'.1 hE']
  · simp only [ok_bind]
    cases ho : e.params.order with
    | none =>
      unfold amplitudeResult
      simp only [List.map_map, Function.comp_def]
    | some o =>
      unfold amplitudeResult
      simp only [List.map_map, Function.comp_def]
      simp only [lift_some E hE o (order_pos _ _ _ hP o ho)]
  · intro q hq Y hY hsub
    obtain ⟨a1, -, -, a4, -⟩ := h1 q hq
    rw [amplitudeFn_eq E hE metric' kind hk _ q (ax q) _ (vec q) hp0 a1 (by rw [hf.1]; exact a4) Y
      (h2 q hq Y hY (fun D h => hD' D (hsub D h)) (equalCounts_sub X' Y q (hE' q hq) hsub))]
    rw [hf.1, pOf_eq]

/-- **C114**, amplitudes based on vectors: likewise. `transform` outputs at `[i, k]` the norm of order `p` of the vector which the corresponding vector representation outputs, times a power of the size of a
cell of the grid; with `order`, the norm over the dimensions. -/
theorem C114_amplitude (E : Engine ℝ Q) (hE : RealEngine E) (e : Est ℝ Q) (metric : Metric) (kind : Kind) (hP : ValidParams .amplitude e.params metric) (hk : vectorizer metric = some kind)
    (hb : 2 ≤ (asVectorizer e.params).nBins) (X : List (List (Pt ℝ Q))) (hT : Training X) (v : Gtda.Vectorizers.Est ℝ Q) (hv : v.params = asVectorizer e.params) :
    (fit .amplitude X e).2 = .ok () ∧ (Gtda.Vectorizers.fit kind X v).2 = .ok () ∧ ∃ (dims : List Q) (cell : Q → ℝ), DimsOfFirst dims X ∧
      (∀ q ∈ dims, CellSize metric X dims q (asVectorizer e.params).nBins (cell q)) ∧
      ∀ nJobs nJobs', 1 ≤ nJobs → 1 ≤ nJobs' → ∀ X', Valid X' → (∀ q ∈ dims, EqualCounts X' q) → (∀ D ∈ X', D ∈ Defined e.params metric dims) →
        ∃ A R', transformAmplitude E nJobs X' (fit .amplitude X e).1 = .ok (amplitudeResult e.params.order A) ∧
          Gtda.Vectorizers.transform E.toEngine kind nJobs' X' (Gtda.Vectorizers.fit kind X v).1 = .ok R' ∧
          A.length = X'.length ∧ (∀ r ∈ A, r.length = dims.length) ∧
          ∀ (i k : Nat) q, i < X'.length → dims[k]? = some q →
            ∃ a : List ℝ, vectorOf (asVectorizer e.params).nLayers R' i k = some (a.map some) ∧
              entry2 A i k = some (lpNorm (pOf e.params) a * cell q ^ exponent metric (pOf e.params)) := by
  obtain ⟨hok, hvok, vec, cell, h1, -, h4, h6⟩ := amplitude_eq E hE e metric kind hP hk hb X hT v hv
  refine ⟨hok, hvok, observedDims X, cell, observedDims_spec X, h1, ?_⟩
  intro nJobs nJobs' hn hn' X' hX' hE' hD'
  obtain ⟨R', hR', hu⟩ := h4 nJobs' hn' X' hX' hE' hD'
  refine ⟨_, R', h6 nJobs hn X' hX' hE' hD', hR', by simp, by simp, ?_⟩
  intro i k q hi hk'
  have e1 := List.getElem?_eq_getElem hi
  refine ⟨_, hu i k _ q e1 hk', ?_⟩
  simp [entry2, e1, hk']

end

section
variable {K Q : Type} [Field K] [LinearOrder K] [IsStrictOrderedRing K] [FloorRing K] [LinearOrder Q]
open Gtda.Props.Vectorizers (axesOf axesOf_spec check_ok_iff observedDims_spec training_dims perDim_congr binSampling_lengths)

/-- **C114**, validation: on a training collection, `fit` succeeds if and only if the metric is known, `order` is positive, and the metric parameters are among those documented for the class and the metric,
with values in the documented ranges. -/
theorem C114_validation (c : Cls) (e : Est K Q) (X : List (List (Pt K Q))) (hT : Training X) : (fit c X e).2 = .ok () ↔ ∃ metric, ValidParams c e.params metric := by
  constructor
  · intro h
    obtain ⟨-, metric, L, hP, -⟩ := fit_success c X e h
    exact ⟨metric, hP⟩
  · rintro ⟨metric, hP⟩
    exact fit_training c X e metric hT hP

/-! ### Metrics based on matchings -/

theorem metric_unique {c : Cls} {P : Params K} {metric metric' : Metric} (h : ValidParams c P metric) (h' : ValidParams c P metric') : metric' = metric :=
  Option.some.inj (h'.known.symm.trans h.known)

/-- **C114**, `bottleneck` and `wasserstein` distances: likewise. The entry `[i, j, k]` is computed by the external library, with the parameters given to the object at the time of `fit`, from the off-diagonal
points of the two diagrams in the `k`-th dimension; with `order`, norms over the dimensions are returned. -/
theorem C114_matching_distance (E : Engine K Q) (e : Est K Q) (metric : Metric) (hm : metric = .bottleneck ∨ metric = .wasserstein) (hP : ValidParams .distance e.params metric)
    (X : List (List (Pt K Q))) (hT : Training X) :
    (fit .distance X e).2 = .ok () ∧ ∃ dims : List Q, DimsOfFirst dims X ∧
      ∀ nJobs, 1 ≤ nJobs → ∀ X', Valid X' → (∀ q ∈ dims, EqualCounts X' q) →
        ∃ A, transformDistance E nJobs X' (fit .distance X e).1 = .ok (match e.params.order with
            | none => .full (A.map fun r => r.map fun c => c.map some)
            | some o => .reduced (A.map fun r => r.map fun c => some (E.norm o c))) ∧
          A.length = X'.length ∧ (∀ r ∈ A, r.length = X.length ∧ ∀ c ∈ r, c.length = dims.length) ∧
          ∀ (i j k : Nat) D D' q, X'[i]? = some D → X[j]? = some D' → dims[k]? = some q →
            entry3 A i j k = some (matching E metric e.params (D.filter fun x => x.q = q ∧ x.b ≠ x.d) (D'.filter fun x => x.q = q ∧ x.b ≠ x.d)) := by
  have hok := fit_training .distance X e metric hT hP
  obtain ⟨hne, hEX, -⟩ := training_dims X hT
  obtain ⟨-, metric', L, hP', hL, hfit⟩ := fit_success .distance X e hok
  have := metric_unique hP hP'
  subst this
  have hf := storeWeight_fields metric' (e.params.mp.getD {})
  refine ⟨hok, observedDims X, observedDims_spec X, ?_⟩
  intro nJobs hn X' hX' hE'
  refine ⟨X'.map fun D => X.map fun D' => (observedDims X).map fun q =>
    matching E metric' e.params (D.filter fun x => x.q = q ∧ x.b ≠ x.d) (D'.filter fun x => x.q = q ∧ x.b ≠ x.d), ?_, by simp, by simp, ?_⟩
  · rw [hfit]
    unfold transformDistance
    dsimp only
    rw [(check_ok_iff X').mpr hX', if_pos rfl]
    simp only [ok_bind, attr, recipe, hP.known]
    have hff : ∀ (D : List (Pt K Q)) q, (pointsIn D q).filter (fun p => decide (p.b ≠ p.d)) = D.filter fun x => x.q = q ∧ x.b ≠ x.d := by
      intro D q
      unfold pointsIn
      rw [List.filter_filter]
      congr 1
      funext x
      rw [Bool.decide_and, Bool.and_comm]
    rw [parallelPairwise_eq _ (fun q D D' => some (matching E metric' e.params (D.filter fun p => decide (p.b ≠ p.d)) (D'.filter fun p => decide (p.b ≠ p.d)))) X' X (observedDims X) nJobs hn hne hX'.1 hT.1.1 hE' hEX]
    · simp only [ok_bind, hff]
      have hlift : ∀ (o : Option K) (l : List Q) (f : Q → K), liftNan (E.norm o) (l.map fun a => some (f a)) = some (E.norm o (l.map f)) := by
        intro o l f
        have : (l.map fun a => some (f a)) = (l.map f).map some := by rw [List.map_map]; rfl
        rw [this, liftNan, mapM_id_some, Option.map_some]
      cases ho : e.params.order with
      | none => simp only [List.map_map, Function.comp_def]
      | some o => simp only [List.map_map, Function.comp_def, hlift]
    · intro q hq Y hY hsub
      have hmat : metricFn E metric' ⟨storeWeight metric' (e.params.mp.getD {}), some (metric', (observedDims X).zip L)⟩ q (X'.map fun D => pointsIn D q) (Y.map fun D => pointsIn D q) =
          .ok ((matchingDistances (matching E metric' e.params) (X'.map fun D => pointsIn D q) (Y.map fun D => pointsIn D q)).map fun r => r.map some) := by
        rcases hm with rfl | rfl
        · unfold metricFn matching
          dsimp only
          rw [if_pos rfl, hf.2.2.2.2.2]
          cases e.params.mp <;> rfl
        · unfold metricFn matching
          dsimp only
          rw [if_neg (by decide), hf.2.2.2.2.2, hf.1]
          cases e.params.mp <;> rfl
      rw [hmat]
      unfold matchingDistances
      simp only [List.map_map, Function.comp_def]
  · intro i j k D D' q h1 h2 h3
    simp [entry3, h1, h2, h3]

/-- **C114**, `bottleneck` amplitudes: likewise. Twice the entry `[i, k]` is the largest lifetime of diagram `i` in the `k`-th dimension. -/
theorem C114_bottleneck_amplitude (E : Engine K Q) (e : Est K Q) (hP : ValidParams .amplitude e.params .bottleneck) (ho : e.params.order = none) (X : List (List (Pt K Q))) (hT : Training X) :
    (fit .amplitude X e).2 = .ok () ∧ ∃ dims : List Q, DimsOfFirst dims X ∧
      ∀ nJobs, 1 ≤ nJobs → ∀ X', Valid X' → (∀ q ∈ dims, EqualCounts X' q) → (∀ D ∈ X', ∀ q ∈ dims, ∃ x ∈ D, x.q = q) →
        ∃ A : List (List K), transformAmplitude E nJobs X' (fit .amplitude X e).1 = .ok (A.map fun r => r.map some) ∧ A.length = X'.length ∧
          ∀ (i k : Nat) D q, X'[i]? = some D → dims[k]? = some q → ∃ a, entry2 A i k = some a ∧ IsGreatest {y | ∃ x ∈ D, x.q = q ∧ y = x.d - x.b} (2 * a) := by
  have hok := fit_training .amplitude X e _ hT hP
  obtain ⟨hne, hEX, -⟩ := training_dims X hT
  obtain ⟨-, metric', L, hP', hL, hfit⟩ := fit_success .amplitude X e hok
  have := metric_unique hP hP'
  subst this
  refine ⟨hok, observedDims X, observedDims_spec X, ?_⟩
  intro nJobs hn X' hX' hE' hpt
  obtain ⟨α, hα, hα'⟩ := C36_bottleneck (K := K) (observedDims X) hne
  obtain ⟨A, hA, hl, hsh, hent⟩ := hα nJobs X' hn hX'.1 hE' (fun D hD q hq => hpt D hD q hq)
  refine ⟨A, ?_, hl, ?_⟩
  · rw [hfit]
    unfold transformAmplitude
    dsimp only
    rw [(check_ok_iff X').mpr hX']
    simp only [ok_bind, attr, recipe, hP.known, ho]
    have hA' : A = X'.map fun D => (observedDims X).map fun q => bottleneckOne (pointsIn D q) := by
      unfold parallelAmplitude at hA
      beta_reduce at hA
      rw [perDim_eq _ (fun _ D => bottleneckOne D) (observedDims X) nJobs hn hne X' hX'.1 hE'] at hA
      · exact (Except.ok.inj hA).symm
      · intro q hq Y hY hsub
        unfold bottleneckAmplitudes
        rw [mapM_ok (g := bottleneckOne), List.map_map]
        · rfl
        · intro D hD
          rw [List.mem_map] at hD
          obtain ⟨D, hD, rfl⟩ := hD
          obtain ⟨x, hx, hxq⟩ := hpt D (hsub D hD) q hq
          exact (bottleneckOne_spec _ (List.ne_nil_of_mem ((mem_pointsIn D q x).mpr ⟨hx, hxq⟩))).1
    unfold parallelAmplitude
    rw [perDim_eq _ (fun _ D => some (bottleneckOne D)) (observedDims X) nJobs hn hne X' hX'.1 hE', hA']
    · simp only [ok_bind, List.map_map, Function.comp_def]
    · intro q hq Y hY hsub
      unfold amplitudeFn
      dsimp only
      have : bottleneckAmplitudes (Y.map fun D => pointsIn D q) = .ok ((Y.map fun D => pointsIn D q).map bottleneckOne) := by
        unfold bottleneckAmplitudes
        rw [mapM_ok (g := bottleneckOne)]
        intro D hD
        rw [List.mem_map] at hD
        obtain ⟨D, hD, rfl⟩ := hD
        obtain ⟨x, hx, hxq⟩ := hpt D (hsub D hD) q hq
        exact (bottleneckOne_spec _ (List.ne_nil_of_mem ((mem_pointsIn D q x).mpr ⟨hx, hxq⟩))).1
      rw [this, ok_bind, List.map_map, List.map_map]
      rfl
  · intro i k D q h1 h2
    have hD := List.mem_of_getElem? h1
    exact ⟨α q D, hent i k D q h1 h2, (hα' q (List.mem_of_getElem? h2) D (hpt D hD q (List.mem_of_getElem? h2))).1 (hX'.2.2 D hD)⟩

end

section
variable {Q : Type} [LinearOrder Q]
open Gtda.Props.Vectorizers (check_ok_iff observedDims_spec training_dims)

/-- **C114**, `wasserstein` amplitudes: likewise. The entry `[i, k]` is the norm of order `p` of half the lifetimes. -/
theorem C114_wasserstein_amplitude (E : Engine ℝ Q) (hE : RealEngine E) (e : Est ℝ Q) (hP : ValidParams .amplitude e.params .wasserstein) (X : List (List (Pt ℝ Q))) (hT : Training X) :
    (fit .amplitude X e).2 = .ok () ∧ ∃ dims : List Q, DimsOfFirst dims X ∧
      ∀ nJobs, 1 ≤ nJobs → ∀ X', Valid X' → (∀ q ∈ dims, EqualCounts X' q) →
        ∃ A, transformAmplitude E nJobs X' (fit .amplitude X e).1 = .ok (amplitudeResult e.params.order A) ∧ A.length = X'.length ∧
          ∀ (i k : Nat) D q, X'[i]? = some D → dims[k]? = some q →
            entry2 A i k = some (lpNorm (pOf e.params) ((D.filter fun x => x.q = q).map fun x => (x.d - x.b) / 2)) := by
  have hok := fit_training .amplitude X e _ hT hP
  obtain ⟨hne, hEX, -⟩ := training_dims X hT
  obtain ⟨-, metric', L, hP', hL, hfit⟩ := fit_success .amplitude X e hok
  have := metric_unique hP hP'
  subst this
  have hp0 : 0 < pOf e.params := lt_of_lt_of_le one_pos (pOf_one_le _ _ _ hP)
  refine ⟨hok, observedDims X, observedDims_spec X, ?_⟩
  intro nJobs hn X' hX' hE'
  refine ⟨X'.map fun D => (observedDims X).map fun q => lpNorm (pOf e.params) ((pointsIn D q).map fun x => (x.d - x.b) / 2), ?_, by simp, ?_⟩
  · rw [hfit]
    unfold transformAmplitude
    dsimp only
    rw [(check_ok_iff X').mpr hX']
    simp only [ok_bind, attr, recipe, hP.known]
    unfold parallelAmplitude
    rw [perDim_eq _ (fun q D => some (lpNorm (pOf e.params) (D.map fun x => (x.d - x.b) / 2))) (observedDims X) nJobs hn hne X' hX'.1 hE']
    · simp only [ok_bind]
      cases ho : e.params.order with
      | none =>
        unfold amplitudeResult
        simp only [List.map_map, Function.comp_def]
      | some o =>
        unfold amplitudeResult
        simp only [List.map_map, Function.comp_def]
        simp only [lift_some E hE o (order_pos _ _ _ hP o ho)]
    · intro q hq Y hY hsub
      unfold amplitudeFn
      dsimp only
      rw [(storeWeight_fields _ _).1]
      simp only [List.map_map, Function.comp_def]
      simp only [hE.norm _ _ (by rw [pOf_eq]; exact hp0), pOf_eq]
  · intro i k D q h1 h2
    simp [entry2, h1, h2, pointsIn]

end

/-! ### Histories -/

section
variable {K Q : Type} [Field K] [LinearOrder K] [LinearOrder Q]

theorem metricFit_fresh (c : Cls) (X : List (List (Pt K Q))) (e : Est K Q) :
    (fit c X e).2 = (fit c X (new e.params)).2 ∧ ((fit c X e).2 = .ok () → (fit c X e).1 = (fit c X (new e.params)).1) := by
  have h2 : (fit c X e).2 = (fit c X (new e.params)).2 := by
    unfold fit new
    dsimp only
    cases check X with
    | error er => rfl
    | ok u =>
      dsimp only
      cases validate e.params with
      | error er => rfl
      | ok metric =>
        dsimp only
        cases validateMetric c metric (e.params.mp.getD {}) with
        | error er => rfl
        | ok u =>
          dsimp only
          cases binSampling (decide (metric = .image)) ((e.params.mp.getD {}).nBins.getD 100) (observedDims X) X <;> rfl
  refine ⟨h2, fun h => ?_⟩
  obtain ⟨-, metric, L, hP, hL, he⟩ := fit_success c X e h
  obtain ⟨-, metric', L', hP', hL', he'⟩ := fit_success c X (new e.params) (by rw [← h2]; exact h)
  have e0 : (new e.params : Est K Q).params = e.params := rfl
  rw [e0] at hP' hL' he'
  have : metric' = metric := Option.some.inj (hP'.known.symm.trans hP.known)
  subst this
  rw [hL, Except.ok.injEq] at hL'
  rw [he, he', hL']

theorem metricFit_params (c : Cls) (X : List (List (Pt K Q))) (e : Est K Q) : (fit c X e).1.params = e.params := by
  unfold fit
  dsimp only
  split
  · rfl
  · split
    · rfl
    · split
      · rfl
      · split <;> rfl

theorem metricRun_params (c : Cls) (ops : List (Op K Q)) (e : Est K Q) : (run c ops e).params = lastSet e.params ops := by
  unfold run
  induction ops generalizing e with
  | nil => rfl
  | cons op ops ih =>
    rw [List.foldl_cons, ih]
    cases op with
    | set P => rfl
    | fit X =>
      dsimp only [Gtda.Spec.DiagramMetrics.lastSet]
      rw [metricFit_params]

/-- **C114**, histories: after any sequence of parameter changes and calls of `fit` (some of which may have failed), a successful `fit` followed by parameter changes leaves the object exactly as a new object
with the parameters at the time of that call, fitted on the same collection, to which the last parameter change has been applied. So `transform` depends only on the last `fit` (if it succeeded), on the
parameters at that time and on the current parameters. -/
theorem C114_history (c : Cls) (P₀ : Params K) (ops : List (Op K Q)) (X : List (List (Pt K Q))) (Ps : List (Params K)) (h : (fit c X (run c ops (new P₀))).2 = .ok ()) :
    let P := lastSet P₀ ops
    (fit c X (new P)).2 = .ok () ∧ run c (ops ++ .fit X :: Ps.map .set) (new P₀) = setParams (Ps.getLastD P) (fit c X (new P)).1 := by
  dsimp only
  have hp : (run c ops (new P₀ : Est K Q)).params = lastSet P₀ ops := metricRun_params c ops _
  obtain ⟨h1, h2⟩ := metricFit_fresh c X (run c ops (new P₀))
  rw [hp] at h1 h2
  refine ⟨by rw [← h1]; exact h, ?_⟩
  have hrun : run c (ops ++ .fit X :: Ps.map .set) (new P₀) = run c (Ps.map .set) (fit c X (new (lastSet P₀ ops))).1 := by
    rw [← h2 h]
    unfold run
    rw [List.foldl_append, List.foldl_cons]
  rw [hrun]
  have hpar : (fit c X (new (lastSet P₀ ops) : Est K Q)).1.params = lastSet P₀ ops := metricFit_params c X _
  generalize (fit c X (new (lastSet P₀ ops) : Est K Q)).1 = e' at hpar
  rw [← hpar]
  clear hrun h h1 h2 hp hpar
  induction Ps generalizing e' with
  | nil => rfl
  | cons P Ps ih =>
    have : run c ((P :: Ps).map Op.set) e' = run c (Ps.map Op.set) (setParams P e') := rfl
    rw [this, ih]
    unfold setParams
    cases Ps with
    | nil => rfl
    | cons P' Ps => simp only [List.getLastD_cons]

variable [FloorRing K]

/-- **C114**, parameters changed after `fit`: new metric parameters are ignored until the next `fit`. -/
theorem C114_ignored_after_fit (E : Engine K Q) (e : Est K Q) (nJobs : Nat) (X' : List (List (Pt K Q))) (m : Option (MParams K)) :
    transformDistance E nJobs X' (setParams { e.params with mp := m } e) = transformDistance E nJobs X' e ∧
    transformAmplitude E nJobs X' (setParams { e.params with mp := m } e) = transformAmplitude E nJobs X' e := ⟨rfl, rfl⟩

theorem storeWeight_id (metric : Metric) (m : MParams K) (h : metric ≠ .image) : storeWeight metric m = m := if_neg h

/-- **C114**, parameters changed after `fit`: another `order`, and another metric which is based on matchings or (if the first metric was one based on curves) on curves, take effect at once, as if they
had been set before `fit`. -/
theorem C114_set_after_fit (E : Engine K Q) (c : Cls) (e : Est K Q) (X : List (List (Pt K Q))) (P' : Params K) (metric metric' : Metric) (hm : e.params.metric = some metric)
    (hm' : P'.metric = some metric') (hc : metric' = metric ∨ metric' = .bottleneck ∨ metric' = .wasserstein ∨ metric ≠ .image ∧ metric ≠ .bottleneck ∧ metric ≠ .wasserstein ∧ metric' ≠ .image)
    (hp : P'.mp = e.params.mp) (h : (fit c X e).2 = .ok ()) (h' : (fit c X (setParams P' e)).2 = .ok ()) (nJobs : Nat) (X' : List (List (Pt K Q))) :
    transformDistance E nJobs X' (setParams P' (fit c X e).1) = transformDistance E nJobs X' (fit c X (setParams P' e)).1 ∧
    transformAmplitude E nJobs X' (setParams P' (fit c X e).1) = transformAmplitude E nJobs X' (fit c X (setParams P' e)).1 := by
  obtain ⟨-, m, L, hP, hL, he⟩ := fit_success c X e h
  obtain ⟨-, m', L', hP', hL', he'⟩ := fit_success c X _ h'
  have e0 : (setParams P' e : Est K Q).params = P' := rfl
  rw [e0] at hP' hL' he'
  have h1 : m = metric := Option.some.inj (hP.known.symm.trans hm)
  have h2 : m' = metric' := Option.some.inj (hP'.known.symm.trans hm')
  subst h1 h2
  rw [hp] at hL' he'
  have key : metricFn E m' ⟨storeWeight m (e.params.mp.getD {}), some (m, (observedDims X).zip L)⟩ = metricFn E m' ⟨storeWeight m' (e.params.mp.getD {}), some (m', (observedDims X).zip L')⟩ ∧
      amplitudeFn E m' ⟨storeWeight m (e.params.mp.getD {}), some (m, (observedDims X).zip L)⟩ = amplitudeFn E m' ⟨storeWeight m' (e.params.mp.getD {}), some (m', (observedDims X).zip L')⟩ := by
    rcases hc with rfl | rfl | rfl | ⟨hi, hb, hw, hi'⟩
    · rw [hL, Except.ok.injEq] at hL'
      rw [hL']
      exact ⟨rfl, rfl⟩
    · constructor
      · funext q Y1 Y2
        unfold metricFn
        dsimp only
        rw [(storeWeight_fields _ _).2.2.2.2.2, (storeWeight_fields _ _).2.2.2.2.2]
      · rfl
    · constructor
      · funext q Y1 Y2
        unfold metricFn
        dsimp only
        rw [(storeWeight_fields _ _).2.2.2.2.2, (storeWeight_fields _ _).1, (storeWeight_fields Metric.wasserstein _).2.2.2.2.2, (storeWeight_fields Metric.wasserstein _).1]
      · funext q Y1
        unfold amplitudeFn
        dsimp only
        rw [(storeWeight_fields _ _).1, (storeWeight_fields Metric.wasserstein _).1]
    · have a : decide (m = .image) = false := decide_eq_false hi
      have b : decide (m' = .image) = false := decide_eq_false hi'
      rw [a] at hL
      rw [b, hL, Except.ok.injEq] at hL'
      rw [storeWeight_id m _ hi, storeWeight_id m' _ hi', ← hL']
      have hmc : m.isCurve = true := by cases m <;> simp_all [Metric.isCurve]
      have hax : ∀ k : Metric, k.isCurve = true → ∀ q, axesFor k ⟨e.params.mp.getD {}, some (m, (observedDims X).zip L)⟩ q =
          axesFor k ⟨e.params.mp.getD {}, some (k, (observedDims X).zip L)⟩ q := by
        intro k hk q
        unfold axesFor
        dsimp only
        rw [if_pos ⟨hk.trans hmc.symm, Or.inl hk⟩, if_pos ⟨rfl, Or.inl hk⟩]
      constructor
      · funext q Y1 Y2
        unfold metricFn
        cases m' with
        | image => exact absurd rfl hi'
        | bottleneck => rfl
        | wasserstein => rfl
        | betti => dsimp only; rw [hax _ rfl]
        | landscape => dsimp only; rw [hax _ rfl]
        | heat => dsimp only; rw [hax _ rfl]
        | silhouette => dsimp only; rw [hax _ rfl]
      · funext q Y
        unfold amplitudeFn
        cases m' with
        | image => exact absurd rfl hi'
        | bottleneck => rfl
        | wasserstein => rfl
        | betti => dsimp only; rw [hax _ rfl]
        | landscape => dsimp only; rw [hax _ rfl]
        | heat => dsimp only; rw [hax _ rfl]
        | silhouette => dsimp only; rw [hax _ rfl]
  rw [he, he']
  unfold setParams transformDistance transformAmplitude
  dsimp only
  unfold recipe
  rw [hm']
  simp only [ok_bind]
  rw [key.1, key.2]
  exact ⟨rfl, rfl⟩

end

/-! ### Failures -/

section
variable {K Q : Type} [Field K] [LinearOrder K] [IsStrictOrderedRing K] [LinearOrder Q]
open Gtda.Props.Vectorizers (check_ok_iff observedDims_spec)

/-- **C114**, failures (partial: it is false that a failed `fit` never changes an object, see the refutations): a `fit` that fails leaves the object as it was if the collection is not accepted, the metric is
unknown or `order` is not positive. If the metric parameters are rejected, they have nevertheless been stored, without grids. If the numbers of points do not match, the homology dimensions are replaced as well. -/
theorem C114_failed_fit_partial (c : Cls) (e : Est K Q) (X : List (List (Pt K Q))) (er : PyErr) (h : (fit c X e).2 = .error er) :
    ((fit c X e).1 = e ∧ (Valid X → e.params.metric = none ∨ ∃ x, e.params.order = some (some x) ∧ x ≤ 0)) ∨
    (Valid X ∧ (¬ ∃ metric, ValidParams c e.params metric) ∧ (fit c X e).1 = { e with eff := some ⟨e.params.mp.getD {}, none⟩ }) ∨
    (Valid X ∧ ¬ Training X ∧ (∃ metric, ValidParams c e.params metric) ∧ ∃ dims, DimsOfFirst dims X ∧
      (fit c X e).1 = { e with eff := some ⟨e.params.mp.getD {}, none⟩, dims := some dims }) := by
  have hTr : Training X → ¬ ∃ metric, ValidParams c e.params metric := by
    rintro hT ⟨metric, hP⟩
    rw [fit_training c X e metric hT hP] at h
    cases h
  unfold fit at h ⊢
  cases hc : check X with
  | error er =>
    left
    refine ⟨rfl, fun hX => ?_⟩
    rw [(check_ok_iff X).mpr hX] at hc
    cases hc
  | ok u =>
    rw [hc] at h
    dsimp only at h ⊢
    cases hv : validate e.params with
    | error er =>
      left
      refine ⟨rfl, fun _ => ?_⟩
      cases hm : e.params.metric with
      | none => exact Or.inl rfl
      | some m =>
        right
        by_contra hno
        have := (validate_ok e.params m).mpr ⟨hm, fun x hx => not_le.mp fun hle => hno ⟨x, hx, hle⟩⟩
        rw [hv] at this
        cases this
    | ok metric =>
      right
      rw [hv] at h
      dsimp only at h ⊢
      cases hm : validateMetric c metric (e.params.mp.getD {}) with
      | error er =>
        left
        refine ⟨(check_ok_iff X).mp hc, ?_, rfl⟩
        rintro ⟨metric', hP⟩
        obtain ⟨g1, g2⟩ := (validateMetric_ok c e.params metric').mpr hP
        rw [hv, Except.ok.injEq] at g1
        subst g1
        rw [hm] at g2
        cases g2
      | ok u =>
        right
        rw [hm] at h
        dsimp only at h ⊢
        have hP : ∃ metric, ValidParams c e.params metric := ⟨metric, (validateMetric_ok c e.params metric).mp ⟨hv, hm⟩⟩
        cases hb : binSampling (decide (metric = .image)) ((e.params.mp.getD {}).nBins.getD 100) (observedDims X) X with
        | error er => exact ⟨(check_ok_iff X).mp hc, fun hT => hTr hT hP, hP, _, observedDims_spec X, rfl⟩
        | ok L => rw [hb] at h; cases h

variable [FloorRing K]
open Gtda.Props.Vectorizers (axesOf axesOf_spec training_dims binSampling_lengths)

/-- **C114**, a single bin: `fit` accepts `n_bins=1` for Betti curves and landscapes, but every amplitude is then NaN. -/
theorem C114_refuted_one_bin (E : Engine K Q) (e : Est K Q) (metric : Metric) (hm : metric = .betti ∨ metric = .landscape) (m : MParams K) (hmp : e.params.mp = some m) (hb : m.nBins = some 1)
    (ho : e.params.order = none) (hP : ValidParams .amplitude e.params metric) (X : List (List (Pt K Q))) (hT : Training X) (nJobs : Nat) (hn : 1 ≤ nJobs) (X' : List (List (Pt K Q))) (hX' : Valid X')
    (hE : ∀ D, X[0]? = some D → ∀ p ∈ D, EqualCounts X' p.q) :
    (fit .amplitude X e).2 = .ok () ∧ ∃ dims : List Q, DimsOfFirst dims X ∧ transformAmplitude E nJobs X' (fit .amplitude X e).1 = .ok (X'.map fun _ => dims.map fun _ => none) := by
  have hok := fit_training .amplitude X e _ hT hP
  obtain ⟨hne, hEX, -⟩ := training_dims X hT
  obtain ⟨-, metric', L, hP', hL, hfit⟩ := fit_success .amplitude X e hok
  have : metric' = metric := Option.some.inj (hP'.known.symm.trans hP.known)
  subst this
  have hds := observedDims_spec X
  have hnd : (observedDims X).Nodup := hds.1.imp fun h => ne_of_lt h
  obtain ⟨hlen, hlen'⟩ := binSampling_lengths _ _ _ _ _ hL
  have hEd : ∀ q ∈ observedDims X, EqualCounts X' q := by
    intro q hq
    obtain ⟨D, hD, p, hp, rfl⟩ := (hds.2 q).mp hq
    exact hE D hD p hp
  refine ⟨hok, observedDims X, hds, ?_⟩
  rw [hfit]
  unfold transformAmplitude
  dsimp only
  rw [(check_ok_iff X').mpr hX']
  simp only [ok_bind, attr, recipe, hP.known, ho]
  unfold parallelAmplitude
  rw [perDim_eq _ (fun _ _ => none) (observedDims X) nJobs hn hne X' hX'.1 hEd]
  · rfl
  · intro q hq Y _ hsub
    obtain ⟨j, hj⟩ := List.mem_iff_getElem?.mp hq
    obtain ⟨a1, a2⟩ := axesOf_spec _ _ hnd hlen j q hj
    obtain ⟨-, -, b2, -⟩ := hlen' _ (List.mem_of_getElem? a1)
    have hnone := b2.mpr (by rw [hmp, Option.getD_some, hb]; exact le_refl _)
    rcases hm with rfl | rfl
    all_goals
      unfold amplitudeFn axesFor
      dsimp only
      rw [if_pos ⟨rfl, Or.inl rfl⟩, a2, ok_bind]
      unfold factor batchAmplitudes vecs
      dsimp only
      rw [hnone, ok_bind]
    · rw [bettiCurves_eq]
      simp only [List.map_map, Function.comp_def, Option.map_none, Option.bind_none]
    · obtain ⟨D₀, hD₀⟩ := List.exists_mem_of_ne_nil _ hX'.1
      rw [landscapes_eq _ _ _ (pointsIn D₀ q).length]
      · simp only [List.map_map, Function.comp_def, Option.map_none, Option.bind_none]
      · intro D hD
        rw [List.mem_map] at hD
        obtain ⟨D, hD, rfl⟩ := hD
        exact hEd q hq D (hsub D hD) D₀ hD₀

end

/-! ### Witnesses and examples -/

open Gtda.Props (vecX vecBad)

/-- An engine over the rational numbers, used in the examples: norms are sums of absolute values. -/
def dmE : Engine ℚ Nat := ⟨⟨fun _ _ I => I, fun x _ => x, 0⟩, fun _ v => (v.map fun x => if x < 0 then -x else x).sum, fun _ a b => a.length * b.length, fun _ _ a b => a.length * b.length⟩
def dmP (metric : Metric) (m : MParams ℚ) : Params ℚ := ⟨some metric, some m, none⟩
def dmX : List (List (Pt ℚ Nat)) := [[⟨0, 2, 0⟩, ⟨1, 3, 1⟩]]

/-- **C114**, failures: metric parameters that `fit` has rejected are used by later calls of `transform`. Here an object fitted with `p = 2` is given `p = 1/2`; `fit` raises `ValueError`, and then
`transform` calls the external library with `p = 1/2`. -/
theorem C114_refuted_rejected_used (E : Engine ℚ Nat) :
    let e := setParams (dmP .wasserstein { p := some (some (1 / 2)) }) (fit .distance dmX (new (dmP .wasserstein { p := some (some 2) }))).1
    (fit .distance dmX (new (dmP .wasserstein { p := some (some 2) }))).2 = .ok () ∧ (fit .distance dmX e).2 = .error .valueError ∧
      transformDistance E 1 dmX e = .ok (.full [[[some (E.wasserstein (some 2) (1 / 100) [⟨0, 2, 0⟩] [⟨0, 2, 0⟩]), some (E.wasserstein (some 2) (1 / 100) [⟨1, 3, 1⟩] [⟨1, 3, 1⟩])]]]) ∧
      transformDistance E 1 dmX (fit .distance dmX e).1 =
        .ok (.full [[[some (E.wasserstein (some (1 / 2)) (1 / 100) [⟨0, 2, 0⟩] [⟨0, 2, 0⟩]), some (E.wasserstein (some (1 / 2)) (1 / 100) [⟨1, 3, 1⟩] [⟨1, 3, 1⟩])]]]) := by
  refine ⟨by decide +kernel, by decide +kernel, ?_, ?_⟩
  · with_unfolding_all rfl
  · with_unfolding_all rfl

/-- **C114**, failures: after `fit` has rejected metric parameters, an object fitted before may be unusable (`transform` raises `TypeError`). -/
theorem C114_refuted_unusable :
    let e := setParams (dmP .betti { nBins := some 0 }) (fit .amplitude vecX (new (dmP .betti { nBins := some 3 }))).1
    (fit .amplitude vecX e).2 = .error .valueError ∧ (∃ A, transformAmplitude dmE 1 vecX e = .ok A) ∧ transformAmplitude dmE 1 vecX (fit .amplitude vecX e).1 = .error .typeError := by
  refine ⟨by decide +kernel, ⟨[[some 4, some 2], [some 4, some 2]], ?_⟩, by decide +kernel⟩
  decide +kernel

/-- **C114**, failures: a failed `fit` can silently change the dimensions of what `transform` returns. -/
theorem C114_refuted_failed_fit :
    let e := (fit .amplitude vecX (new (dmP .bottleneck {}))).1
    (fit .amplitude vecBad e).2 = .error .valueError ∧ transformAmplitude dmE 1 vecX e = .ok [[some 1, some (1 / 2)], [some 2, some (3 / 2)]] ∧
      transformAmplitude dmE 1 vecX (fit .amplitude vecBad e).1 = .ok [[some 1], [some 2]] := by decide +kernel

/-- **C114**, failures: after a failed first `fit` the object counts as fitted, and `transform` raises `AttributeError` instead of `NotFittedError`. -/
theorem C114_refuted_not_fitted :
    let e : Est ℚ Nat := new (dmP .betti { nBins := some 0 })
    (fit .distance vecX e).2 = .error .valueError ∧ transformDistance dmE 1 vecX e = .error .notFitted ∧ transformDistance dmE 1 vecX (fit .distance vecX e).1 = .error .attributeError ∧
      (fit .amplitude vecX e).2 = .error .valueError ∧ transformAmplitude dmE 1 vecX e = .error .notFitted ∧ transformAmplitude dmE 1 vecX (fit .amplitude vecX e).1 = .error .attributeError := by
  decide +kernel

example : (fit .distance vecX (new (dmP .betti { sigma := some 1 }))).2 = .error .keyError := by decide +kernel
example : (fit .amplitude vecX (new (dmP .bottleneck { delta := some (1 / 2) }))).2 = .error .keyError ∧ (fit .distance vecX (new (dmP .bottleneck { delta := some (1 / 2) }))).2 = .ok () := by decide +kernel
example : transformDistance dmE 2 vecX (fit .distance vecX (new (dmP .betti { nBins := some 3 }))).1 = .ok (.full [[[some 0, some 0], [some 0, some 4]], [[some 0, some 4], [some 0, some 0]]]) := by decide +kernel
example : ValidParams .distance (dmP .landscape { p := some none, nBins := some 3, nLayers := some 2 }) .landscape :=
  ((validateMetric_ok _ _ _).mp ⟨by decide +kernel, by decide +kernel⟩)

example : (fit .distance vecX (run .distance [.set (dmP .betti { nBins := some 0 }), .fit vecX, .fit vecBad, .set (dmP .heat {})] (new (dmP .betti {})))).2 = .ok () := by decide +kernel
example : ValidParams .amplitude (dmP .betti { nBins := some 1 }) .betti := ((validateMetric_ok _ _ _).mp ⟨by decide +kernel, by decide +kernel⟩)
/-- There are engines as in the theorems over the real numbers. -/
example : RealEngine (⟨⟨fun _ _ I => I, fun x y => x ^ y, 0⟩, fun p v => lpNorm (toP p) v, fun _ _ _ => 0, fun _ _ _ _ => 0⟩ : Engine ℝ Nat) := ⟨fun _ _ _ => rfl, fun _ _ => rfl, fun _ _ _ _ h => h⟩
example : ValidParams .distance (⟨some .heat, some { nBins := some 3, sigma := some 1, p := some (some 1) }, some (some 2)⟩ : Params ℝ) .heat := by
  constructor <;> (try rintro m x h) <;> (try simp only [Option.some.injEq] at h; subst h) <;> simp +contextual
  all_goals (intro h; linarith)

end Gtda.Props
