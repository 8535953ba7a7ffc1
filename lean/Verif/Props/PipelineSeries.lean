import Verif.Model.PipelineSeries
import Verif.Props.Pipeline
import Verif.Props.TimeSeriesMore
import Verif.Props.TimeSeriesWindows

set_option autoImplicit false

/-!
# Pipelines of time-series resamplers (C16, C82)
-/

namespace Gtda.Pipeline
open Gtda.Py Gtda.TimeSeries Gtda.Props

/-! ### C16, for arbitrary steps -/

section Generic
variable {V Y P S : Type}

/-- The step keeps data and targets aligned: `transform_resample` returns as many samples as targets when given as many samples as targets; a step that only transforms keeps the number
of samples. -/
def KeepsAligned (lenV : V → Nat) (lenY : Y → Nat) (s : Step V Y P S) : Prop :=
  ∀ e, s.kind = .est e → ∀ X y X' y', lenV X = lenY y →
    (match e.transformResample with
      | some trs => trs s.state X (some y) = .ok (X', y') → ∃ z, y' = some z ∧ lenV X' = lenY z
      | none => ∀ tr, e.transform = some tr → tr s.state X = .ok X' → lenV X' = lenV X)

/-- **C16.** If every step keeps data and targets aligned, so does the pipeline's `transform_resample`. -/
theorem C16_aligned (lenV : V → Nat) (lenY : Y → Nat) (steps : List (Step V Y P S)) (hl : ∀ s ∈ steps, KeepsAligned lenV lenY s) (X : V) (y : Y) (hxy : lenV X = lenY y)
    (X' : V) (y' : Option Y) (h : transformResample steps X (some y) = .ok (X', y')) : ∃ z, y' = some z ∧ lenV X' = lenY z := by
  induction steps generalizing X y with
  | nil =>
    simp only [transformResample, iter_nil, List.foldlM_nil, pure_ok, Except.ok.injEq, Prod.mk.injEq] at h
    obtain ⟨rfl, rfl⟩ := h
    exact ⟨y, rfl, hxy⟩
  | cons s t ih =>
    have ih := ih fun s hs => hl s (List.mem_cons_of_mem _ hs)
    by_cases hk : ∃ e, s.kind = .est e
    · obtain ⟨e, hk⟩ := hk
      have ha := hl s List.mem_cons_self e hk X y
      unfold transformResample at h
      rw [iter_cons_est s t e hk, List.foldlM_cons] at h
      simp only [transformResampleOne] at h
      cases htr : e.transformResample with
      | some trs =>
        simp only [htr] at h ha
        cases hr : trs s.state X (some y) with
        | error err => simp [hr] at h
        | ok q =>
          obtain ⟨X1, y1⟩ := q
          obtain ⟨z, rfl, hz⟩ := ha X1 y1 hxy hr
          simp only [hr, ok_bind] at h
          exact ih X1 z hz h
      | none =>
        simp only [htr] at h ha
        cases ht : e.transform with
        | none => simp [attr, ht] at h
        | some tr =>
          simp only [attr, ht, ok_bind] at h
          cases hr : tr s.state X with
          | error err => simp [hr] at h
          | ok X1 =>
            simp only [hr, ok_bind] at h
            exact ih X1 y (by rw [ha X1 none hxy tr ht hr]; exact hxy) h
    · have hk' : ∀ e, s.kind ≠ .est e := fun e he => hk ⟨e, he⟩
      unfold transformResample at h
      rw [iter_cons_skip s t hk'] at h
      exact ih X y hxy h

/-- After a `fit` that succeeds, the steps are the same objects, each in a state in which its own `fit` left it. -/
theorem fit_states (steps : List (Step V Y P S)) (hl : ∀ s ∈ steps, Lawful s) (X : V) (y : Option Y) (fp : Dict P) (h : (fit steps X y fp).2 = .ok ()) (s' : Step V Y P S)
    (hs' : s' ∈ (fit steps X y fp).1) : ∃ s ∈ steps, s'.name = s.name ∧ s'.kind = s.kind ∧ ((∀ e, s.kind ≠ .est e) ∨
      ∃ e Xi yi prm, s.kind = .est e ∧ e.fit s.state Xi yi prm = (s'.state, .ok ())) := by
  rcases hfi : fitInner steps X y fp with ⟨front, r⟩
  cases r with
  | error err => simp [fit, withFinal, hfi] at h
  | ok r =>
    obtain ⟨fps, h1, h2, h3, h4, h5⟩ := fitInner_spec steps X y fp front r hfi
    have hlf : ∀ s ∈ steps.dropLast, LawfulFront s := fun s hs => (hl s (List.dropLast_subset _ hs)).front
    obtain ⟨_, _, _, i4, i5⟩ := fitLoop_spec fps _ X y front r.X r.y hlf h3
    have hfinal : r.final ∈ steps := by rw [h4]; simp
    have hfront : s' ∈ front → ∃ s ∈ steps, s'.name = s.name ∧ s'.kind = s.kind ∧ ((∀ e, s.kind ≠ .est e) ∨
      ∃ e Xi yi prm, s.kind = .est e ∧ e.fit s.state Xi yi prm = (s'.state, .ok ())) := by
      intro hm
      obtain ⟨i, hi, hi'⟩ := List.mem_iff_getElem.1 hm
      have hlt : i < steps.dropLast.length := by omega
      obtain ⟨s'', hs'', hn, hk, hf⟩ := i5 i _ (List.getElem?_eq_getElem hlt)
      rw [List.getElem?_eq_getElem hi, Option.some.injEq] at hs''
      rw [hi'] at hs''
      subst hs''
      refine ⟨_, List.dropLast_subset _ (List.getElem_mem hlt), hn, hk, ?_⟩
      by_cases he : ∃ e, (steps.dropLast[i]).kind = .est e
      · obtain ⟨e, he⟩ := he
        obtain ⟨prm, Xi, yi, _, hfit⟩ := hf e he
        exact Or.inr ⟨e, Xi, yi, prm, he, hfit⟩
      · exact Or.inl fun e h => he ⟨e, h⟩
    simp only [fit, withFinal, hfi] at hs' h
    cases hk : r.final.kind with
    | est e =>
      simp only [hk, List.mem_append, List.mem_singleton] at hs' h
      rcases hs' with hs' | rfl
      · exact hfront hs'
      · exact ⟨_, hfinal, rfl, hk.symm, Or.inr ⟨e, r.X, r.y, r.params, hk, by rw [← h]⟩⟩
    | none =>
      simp only [hk, List.mem_append, List.mem_singleton] at hs'
      rcases hs' with hs' | rfl
      · exact hfront hs'
      · exact ⟨_, hfinal, rfl, rfl, Or.inl (by simp [hk])⟩
    | passthrough =>
      simp only [hk, List.mem_append, List.mem_singleton] at hs'
      rcases hs' with hs' | rfl
      · exact hfront hs'
      · exact ⟨_, hfinal, rfl, rfl, Or.inl (by simp [hk])⟩

end Generic

/-! ### C82 -/

/-- `transform` and `resample` do not look ahead: for every number `n` of time points there are times `ts`, increasing and less than `n`, such that sample `i` has the target of time
`ts[i]`, and depends on the data up to time `ts[i]` only. -/
def NoLookahead {A B β : Type} (n : Nat) (run : List A → List β → PyM (List B × Option (List β))) : Prop :=
  ∃ ts : List Nat, ts.Pairwise (· < ·) ∧ (∀ t ∈ ts, t < n) ∧
    ∀ (X : List A) (y : List β) (X' : List B) (y' : Option (List β)), X.length = n → y.length = n → run X y = .ok (X', y') →
      X'.length = ts.length ∧
      (∃ z, y' = some z ∧ z.length = ts.length ∧ ∀ (i t : Nat), ts[i]? = some t → z[i]? = y[t]?) ∧
      ∀ (X2 : List A) (y2 : List β) (X2' : List B) (y2' : Option (List β)), X2.length = n → y2.length = n → run X2 y2 = .ok (X2', y2') →
        ∀ (i t : Nat), ts[i]? = some t → X.take (t + 1) = X2.take (t + 1) → X'[i]? = X2'[i]?

/-- Samples at times in arithmetic progression. -/
theorem noLookahead_of {A B β : Type} (n c a s : Nat) (hs : 1 ≤ s) (hn : ∀ i, i < c → a + i * s < n) (f : List A → PyM (List B)) (r : List β → List β)
    (h : ∀ X y X', X.length = n → y.length = n → f X = .ok X' → X'.length = c ∧ (r y).length = c ∧ (∀ i, i < c → (r y)[i]? = y[a + i * s]?) ∧
      ∀ X2 X2', X2.length = n → f X2 = .ok X2' → ∀ i, i < c → X.take (a + i * s + 1) = X2.take (a + i * s + 1) → X'[i]? = X2'[i]?) :
    NoLookahead n fun X y => (f X) >>= fun X' => .ok (X', some (r y)) := by
  refine ⟨(List.range c).map fun i => a + i * s, ?_, ?_, ?_⟩
  · rw [List.pairwise_map]
    refine List.pairwise_lt_range.imp ?_
    intro i j hij
    have : i * s < j * s := Nat.mul_lt_mul_of_pos_right hij hs
    omega
  · intro t ht
    simp only [List.mem_map, List.mem_range] at ht
    obtain ⟨i, hi, rfl⟩ := ht
    exact hn i hi
  · have hget : ∀ (i t : Nat), ((List.range c).map fun i => a + i * s)[i]? = some t → i < c ∧ t = a + i * s := by
      intro i t hit
      rw [List.getElem?_map, Option.map_eq_some_iff] at hit
      obtain ⟨j, hj, rfl⟩ := hit
      rw [List.getElem?_eq_some_iff] at hj
      obtain ⟨hlt, hj⟩ := hj
      rw [List.getElem_range] at hj
      subst hj
      exact ⟨by simpa using hlt, rfl⟩
    intro X y X' y' hX hy hrun
    beta_reduce at hrun
    cases hf : f X with
    | error err => simp [hf] at hrun
    | ok X1 =>
      simp only [hf, ok_bind, Except.ok.injEq, Prod.mk.injEq] at hrun
      obtain ⟨rfl, rfl⟩ := hrun
      obtain ⟨h1, h2, h3, h4⟩ := h X y X1 hX hy hf
      refine ⟨by simpa using h1, ⟨_, rfl, by simpa using h2, ?_⟩, ?_⟩
      · intro i t hit
        obtain ⟨hi, rfl⟩ := hget i t hit
        exact h3 i hi
      · intro X2 y2 X2' y2' hX2 hy2 hrun2 i t hit htake
        beta_reduce at hrun2
        obtain ⟨hi, rfl⟩ := hget i t hit
        cases hf2 : f X2 with
        | error err => simp [hf2] at hrun2
        | ok X3 =>
          simp only [hf2, ok_bind, Except.ok.injEq, Prod.mk.injEq] at hrun2
          obtain ⟨rfl, rfl⟩ := hrun2
          exact h4 X2 X3 hX2 hf2 i hi htake

theorem getElem?_of_take {A : Type} {X X2 : List A} {t j : Nat} (h : X.take (t + 1) = X2.take (t + 1)) (hj : j ≤ t) : X[j]? = X2[j]? := by
  have := congrArg (fun l => l[j]?) h
  simpa [List.getElem?_take, Nat.lt_succ_of_le hj] using this

theorem block_of_take {A : Type} {X X2 : List A} {a k : Nat} (h : X.take (a + k) = X2.take (a + k)) : (X.drop a).take k = (X2.drop a).take k := by
  have := congrArg (List.drop a) h
  rwa [List.drop_take, List.drop_take, Nat.add_sub_cancel_left] at this

/-- `SlidingWindow` with windows of at least two samples. -/
theorem sliding_noLookahead {A B β : Type} (wrap : List A → B) (size stride : Nat) (hsz : 2 ≤ size) (hst : 1 ≤ stride) (n : Nat) :
    NoLookahead (β := β) n fun X y => ((fun W => W.map wrap) <$> slidingTransform size stride X) >>= fun X' => .ok (X', some (slidingResample size stride y)) := by
  by_cases hn : size ≤ n
  · refine noLookahead_of n ((n - size) / stride + 1) ((n - size) % stride + (size - 1)) stride hst ?_ _ _ ?_
    · intro i hi
      have := window_end_le n size stride i hn hi
      omega
    · intro X y X' hX hy hf
      rw [slidingTransform_ok X size stride (by omega), hX] at hf
      simp only [ok_map, Except.ok.injEq] at hf
      subst hf
      obtain ⟨hl, hg⟩ := backSlice y (size - 1) stride hst (by omega) (by omega)
      have hcast : (((size - 1 : Nat) : Int) - 1) = (size : Int) - 2 := by omega
      have hdiv : y.length - 1 - (size - 1) = n - size := by omega
      simp only [hcast, hdiv] at hl hg
      refine ⟨by simp, by unfold slidingResample; exact hl, ?_, ?_⟩
      · intro i hi
        unfold slidingResample
        rw [hg i hi]
        congr 1
        omega
      · intro X2 X2' hX2 hf2 i hi htake
        rw [slidingTransform_ok X2 size stride (by omega), hX2] at hf2
        simp only [ok_map, Except.ok.injEq] at hf2
        subst hf2
        have hb := block_of_take (a := (n - size) % stride + i * stride) (k := size) (X := X) (X2 := X2) (by
          have : (n - size) % stride + (size - 1) + i * stride + 1 = (n - size) % stride + i * stride + size := by omega
          rwa [this] at htake)
        simp [List.getElem?_map, List.getElem?_range hi, hb]
  · refine ⟨[], List.Pairwise.nil, by simp, ?_⟩
    intro X y X' y' hX hy hrun
    beta_reduce at hrun
    rw [(C01_sliding_window_transform X size stride (by omega) hst).1 (by omega)] at hrun
    simp at hrun

/-- `Resampler`. -/
theorem resampler_noLookahead {A β : Type} (p : Nat) (hp : 1 ≤ p) (n : Nat) :
    NoLookahead (B := A) (β := β) n fun X y => (Except.ok (resamplerTransform p X)) >>= fun X' => .ok (X', some (resamplerResample p y)) := by
  refine noLookahead_of n ((n + p - 1) / p) 0 p hp ?_ _ _ ?_
  · intro i hi
    have := ((resampler_eq p hp (List.range n)).2 i (by simpa using hi)).2
    simpa using this
  · intro X y X' hX hy hf
    simp only [Except.ok.injEq] at hf
    subst hf
    obtain ⟨h1, h2, h3⟩ := C10_resampler p hp X y (by omega)
    rw [h2, hX]
    refine ⟨rfl, by rw [← h1, h2, hX], ?_, ?_⟩
    · intro i hi
      simpa using (h3 i (by rw [h2, hX]; exact hi)).2.2
    · intro X2 X2' hX2 hf2 i hi htake
      simp only [Except.ok.injEq] at hf2
      subst hf2
      obtain ⟨g1, g2, g3⟩ := C10_resampler p hp X2 y (by omega)
      rw [(h3 i (by rw [h2, hX]; exact hi)).2.1, (g3 i (by rw [g2, hX2]; exact hi)).2.1]
      exact getElem?_of_take htake (by omega)

theorem stationResample_eq {β : Type} (y : List β) : stationResample y = y.drop 1 := pySlice_from y 1

/-- Functions of consecutive rows. -/
theorem station_noLookahead {A β : Type} (f : List A → List A) (g : A → A → A) (hf : ∀ X, f X = List.zipWith g X X.tail) (n : Nat) :
    NoLookahead (β := β) n fun X y => (Except.ok (f X)) >>= fun X' => .ok (X', some (stationResample y)) := by
  refine noLookahead_of n (n - 1) 1 1 le_rfl (by intro i hi; omega) _ _ ?_
  intro X y X' hX hy h
  simp only [Except.ok.injEq] at h
  subst h
  refine ⟨by rw [hf]; simp [hX], by rw [stationResample_eq]; simp [hy], ?_, ?_⟩
  · intro i hi
    rw [stationResample_eq, List.getElem?_drop, Nat.mul_one]
  · intro X2 X2' hX2 h2 i hi htake
    simp only [Except.ok.injEq] at h2
    subst h2
    rw [hf, hf, List.getElem?_zipWith, List.getElem?_zipWith, List.getElem?_tail, List.getElem?_tail, getElem?_of_take htake (by omega : i ≤ _),
      getElem?_of_take htake (by omega : i + 1 ≤ _)]

theorem stationReturn_eq {A : Type} [Sub A] [Div A] (X : List A) : stationReturn X = List.zipWith (fun a b => (b - a) / b) X X.tail := by
  have h1 : pySlice (some 1) none 1 X = X.drop 1 := pySlice_from X 1
  unfold stationReturn npDiff
  rw [h1]
  apply List.ext_getElem?
  intro i
  simp only [List.getElem?_zipWith, List.getElem?_tail, List.getElem?_drop, Nat.add_comm 1 i]
  cases X[i]? <;> cases X[i + 1]? <;> rfl

theorem stationLogReturn_eq {A : Type} [Sub A] (log : A → A) (X : List A) : stationLogReturn log X = List.zipWith (fun a b => log b - log a) X X.tail := by
  unfold stationLogReturn npDiff
  apply List.ext_getElem?
  intro i
  simp only [List.getElem?_zipWith, List.getElem?_tail, List.getElem?_map]
  cases X[i]? <;> cases X[i + 1]? <;> rfl

/-- `SingleTakensEmbedding` with dimension at least two. -/
theorem takens_noLookahead {A B β : Type} (wrap : List A → B) (τ d stride : Nat) (hτ : 1 ≤ τ) (hd : 2 ≤ d) (hst : 1 ≤ stride) (n : Nat) :
    NoLookahead (β := β) n fun X y => ((fun E => E.map wrap) <$> singleTakensTransform τ d stride X) >>= fun X' => .ok (X', some (singleTakensResample τ d stride y)) := by
  by_cases hn : τ * (d - 1) < n
  · have hfi : ((τ : Int) * ((d : Int) - 1) - 1) = ((τ * (d - 1) : Nat) : Int) - 1 := by
      have : ((d : Int) - 1) = ((d - 1 : Nat) : Int) := by omega
      rw [this]; push_cast; ring
    have hb : 1 ≤ τ * (d - 1) := Nat.mul_pos hτ (by omega)
    refine noLookahead_of n ((n - τ * (d - 1) - 1) / stride + 1) ((n - τ * (d - 1) - 1) % stride + τ * (d - 1)) stride hst ?_ _ _ ?_
    · intro i hi
      have h1 := Nat.div_add_mod (n - τ * (d - 1) - 1) stride
      have h2 : i * stride ≤ stride * ((n - τ * (d - 1) - 1) / stride) := by
        rw [Nat.mul_comm]; exact Nat.mul_le_mul_left _ (by omega)
      omega
    · intro X y X' hX hy hf
      obtain ⟨E, hE, hs⟩ := takens1_ok X τ d stride true (by omega) (by omega)
      have hE' : singleTakensTransform τ d stride X = .ok E := hE
      rw [hE'] at hf
      simp only [ok_map, Except.ok.injEq] at hf
      subst hf
      simp only [if_true, hX] at hs
      have hc := hs.count
      rw [hX] at hc
      obtain ⟨hl, hg⟩ := backSlice y (τ * (d - 1)) stride hst hb (by omega)
      have hdiv : y.length - 1 - τ * (d - 1) = n - τ * (d - 1) - 1 := by omega
      rw [hdiv] at hl hg
      refine ⟨by simpa using hc, ?_, ?_, ?_⟩
      · unfold singleTakensResample
        simp only [hfi]
        exact hl
      · intro i hi
        unfold singleTakensResample
        simp only [hfi]
        rw [hg i hi]
        congr 1
        omega
      · intro X2 X2' hX2 hf2 i hi htake
        obtain ⟨E2, hE2, hs2⟩ := takens1_ok X2 τ d stride true (by omega) (by omega)
        have hE2' : singleTakensTransform τ d stride X2 = .ok E2 := hE2
        rw [hE2'] at hf2
        simp only [ok_map, Except.ok.injEq] at hf2
        subst hf2
        simp only [if_true, hX2] at hs2
        have hc2 := hs2.count
        rw [hX2] at hc2
        have h1 : i < E.length := by omega
        have h2 : i < E2.length := by omega
        rw [List.getElem?_map, List.getElem?_map, List.getElem?_eq_getElem h1, List.getElem?_eq_getElem h2]
        congr 2
        apply List.ext_getElem?
        intro k
        by_cases hk : k < d
        · rw [(hs.coords i h1 k hk).2, (hs2.coords i h2 k hk).2]
          apply getElem?_of_take htake
          have : k * τ ≤ τ * (d - 1) := by rw [Nat.mul_comm]; exact Nat.mul_le_mul_left _ (by omega)
          omega
        · rw [List.getElem?_eq_none (by rw [hs.dims i h1]; omega), List.getElem?_eq_none (by rw [hs2.dims i h2]; omega)]
  · refine ⟨[], List.Pairwise.nil, by simp, ?_⟩
    intro X y X' y' hX hy hrun
    beta_reduce at hrun
    have : singleTakensTransform τ d stride X = .error .valueError := (C04_takens_univariate X τ d stride true (by omega) hst).1 (by omega)
    rw [this] at hrun
    simp at hrun

section Chain
variable {K β P : Type}

/-- Steps of the library that resample series: windows of at least two samples, resampling, returns and logarithmic returns, embeddings of dimension at least two. -/
inductive SeriesStep [Sub (Arr K)] [Div (Arr K)] : Step (Rows K) (List β) P (Nat × Nat) → Prop
  | passthrough (name st) : SeriesStep ⟨name, .passthrough, st⟩
  | none (name st) : SeriesStep ⟨name, .none, st⟩
  | sliding (name st size stride) : 2 ≤ size → 1 ≤ stride → SeriesStep ⟨name, .est (slidingStep size stride), st⟩
  | resampler (name st period) : 1 ≤ period → SeriesStep ⟨name, .est (resamplerStep period), st⟩
  | returns (name st) : SeriesStep ⟨name, .est returnStep, st⟩
  | logReturns (name st log) : SeriesStep ⟨name, .est (logReturnStep log), st⟩
  | takens {F : Type} [Field F] [LinearOrder F] (name search) (mi : Rows K → Nat → F) (fnn τ₀ d₀ stride) (τ d : Nat) : 1 ≤ τ → 2 ≤ d → 1 ≤ stride →
      SeriesStep ⟨name, .est (takensStep search mi fnn τ₀ d₀ stride), (τ, d)⟩

/-- Composition. -/
theorem NoLookahead.comp {A B C : Type} (n : Nat) (f : List A → List β → PyM (List B × Option (List β))) (g : List B → Option (List β) → PyM (List C × Option (List β)))
    (hf : NoLookahead n f) (hg : ∀ m, NoLookahead m fun X y => g X (some y)) : NoLookahead n fun X y => (f X y) >>= fun r => g r.1 r.2 := by
  obtain ⟨ts, h1, h2, h3⟩ := hf
  obtain ⟨us, g1, g2, g3⟩ := hg ts.length
  have hmono : ∀ (i j t u : Nat), i ≤ j → ts[i]? = some t → ts[j]? = some u → t ≤ u := by
    intro i j t u hij hi hj
    rcases hij.eq_or_lt with rfl | hlt
    · rw [hi] at hj; cases hj; exact le_rfl
    · rw [List.getElem?_eq_some_iff] at hi hj
      obtain ⟨hi', rfl⟩ := hi
      obtain ⟨hj', rfl⟩ := hj
      exact (List.pairwise_iff_getElem.1 h1 i j hi' hj' hlt).le
  have hmap : ∀ (i t : Nat), (us.filterMap fun u => ts[u]?)[i]? = some t ↔ ∃ u, us[i]? = some u ∧ ts[u]? = some t := by
    have heq : (us.filterMap fun u => ts[u]?) = us.map fun u => ts.getD u 0 := by
      rw [← List.filterMap_eq_map]
      apply List.filterMap_congr
      intro u hu
      simp [List.getD_eq_getElem?_getD, List.getElem?_eq_getElem (g2 u hu)]
    intro i t
    rw [heq, List.getElem?_map, Option.map_eq_some_iff]
    constructor
    · rintro ⟨u, hu, rfl⟩
      refine ⟨u, hu, ?_⟩
      have := g2 u (List.mem_of_getElem? hu)
      simp [List.getD_eq_getElem?_getD, List.getElem?_eq_getElem this]
    · rintro ⟨u, hu, ht⟩
      exact ⟨u, hu, by simp [List.getD_eq_getElem?_getD, ht]⟩
  have hlen : (us.filterMap fun u => ts[u]?).length = us.length := by
    have heq : (us.filterMap fun u => ts[u]?) = us.map fun u => ts.getD u 0 := by
      rw [← List.filterMap_eq_map]
      apply List.filterMap_congr
      intro u hu
      simp [List.getD_eq_getElem?_getD, List.getElem?_eq_getElem (g2 u hu)]
    rw [heq, List.length_map]
  refine ⟨us.filterMap fun u => ts[u]?, ?_, ?_, ?_⟩
  · rw [List.pairwise_iff_getElem]
    intro i j hi hj hij
    have hi' := List.getElem?_eq_getElem hi
    have hj' := List.getElem?_eq_getElem hj
    obtain ⟨u, hu, hut⟩ := (hmap i _).1 hi'
    obtain ⟨v, hv, hvt⟩ := (hmap j _).1 hj'
    rw [List.getElem?_eq_some_iff] at hu hv hut hvt
    obtain ⟨hu', rfl⟩ := hu
    obtain ⟨hv', rfl⟩ := hv
    obtain ⟨a, ha⟩ := hut
    obtain ⟨b, hb⟩ := hvt
    rw [← ha, ← hb]
    exact List.pairwise_iff_getElem.1 h1 _ _ a b (List.pairwise_iff_getElem.1 g1 i j hu' hv' hij)
  · intro t ht
    rw [List.mem_filterMap] at ht
    obtain ⟨u, _, hu⟩ := ht
    exact h2 t (List.mem_of_getElem? hu)
  · intro X y X' y' hX hy hrun
    beta_reduce at hrun
    cases hr : f X y with
    | error err => simp [hr] at hrun
    | ok r =>
      obtain ⟨X1, y1⟩ := r
      simp only [hr, ok_bind] at hrun
      obtain ⟨a1, ⟨z, rfl, a2, a3⟩, a4⟩ := h3 X y X1 y1 hX hy hr
      obtain ⟨b1, ⟨w, rfl, b2, b3⟩, b4⟩ := g3 X1 z X' y' a1 a2 hrun
      refine ⟨by rw [b1, hlen], ⟨w, rfl, by rw [b2, hlen], ?_⟩, ?_⟩
      · intro i t hit
        obtain ⟨u, hu, hut⟩ := (hmap i t).1 hit
        rw [b3 i u hu, a3 u t hut]
      · intro X2 y2 X2' y2' hX2 hy2 hrun2 i t hit htake
        beta_reduce at hrun2
        cases hr2 : f X2 y2 with
        | error err => simp [hr2] at hrun2
        | ok r2 =>
          obtain ⟨X3, y3⟩ := r2
          simp only [hr2, ok_bind] at hrun2
          obtain ⟨c1, ⟨z2, rfl, c2, _⟩, _⟩ := h3 X2 y2 X3 y3 hX2 hy2 hr2
          obtain ⟨u, hu, hut⟩ := (hmap i t).1 hit
          refine b4 X3 z2 X2' y2' c1 c2 hrun2 i u hu ?_
          apply List.ext_getElem?
          intro j
          rw [List.getElem?_take, List.getElem?_take]
          split_ifs with hj
          · by_cases hjt : j < ts.length
            · have htj := List.getElem?_eq_getElem hjt
              have hle : ts[j] ≤ t := hmono j u _ _ (by omega) htj hut
              refine a4 X2 y2 X3 (some z2) hX2 hy2 hr2 j _ htj ?_
              have := congrArg (List.take (ts[j] + 1)) htake
              rwa [List.take_take, List.take_take, Nat.min_eq_left (by omega)] at this
            · rw [List.getElem?_eq_none (by omega), List.getElem?_eq_none (by omega)]
          · rfl

theorem NoLookahead.id {A : Type} (n : Nat) : NoLookahead n fun (X : List A) (y : List β) => .ok (X, some y) := by
  refine ⟨List.range n, List.pairwise_lt_range, by simp, ?_⟩
  intro X y X' y' hX hy h
  simp only [Except.ok.injEq, Prod.mk.injEq] at h
  obtain ⟨rfl, rfl⟩ := h
  have hget : ∀ (i t : Nat), (List.range n)[i]? = some t → t = i := by
    intro i t h
    rw [List.getElem?_eq_some_iff] at h
    obtain ⟨_, h⟩ := h
    rw [List.getElem_range] at h
    exact h.symm
  refine ⟨by simp [hX], ⟨y, rfl, by simp [hy], ?_⟩, ?_⟩
  · intro i t hit; rw [hget i t hit]
  · intro X2 y2 X2' y2' _ _ h2 i t hit htake
    simp only [Except.ok.injEq, Prod.mk.injEq] at h2
    obtain ⟨rfl, rfl⟩ := h2
    have := hget i t hit
    subst this
    exact getElem?_of_take htake le_rfl

variable [Sub (Arr K)] [Div (Arr K)]

/-- One step. -/
theorem step_noLookahead (s : Step (Rows K) (List β) P (Nat × Nat)) (hs : SeriesStep s) (e : Est (Rows K) (List β) P (Nat × Nat)) (hk : s.kind = .est e) (n : Nat) :
    NoLookahead n fun X y => transformResampleOne (X, some y) (e, s.state) := by
  cases hs with
  | passthrough name st => cases hk
  | none name st => cases hk
  | sliding name st size stride h1 h2 => cases hk; exact sliding_noLookahead Arr.arr size stride h1 h2 n
  | resampler name st p hp => cases hk; exact resampler_noLookahead p hp n
  | returns name st => cases hk; exact station_noLookahead _ _ (stationReturn_eq (A := Arr K)) n
  | logReturns name st log => cases hk; exact station_noLookahead _ _ (stationLogReturn_eq log) n
  | takens name search mi fnn τ₀ d₀ stride τ d h1 h2 h3 => cases hk; exact takens_noLookahead Arr.arr τ d stride h1 h2 h3 n

/-- **C82, C16.** In a pipeline of any number of time-series steps (`SlidingWindow` with `size ≥ 2`, `Resampler`, `Stationarizer`, `SingleTakensEmbedding` with fitted dimension `≥ 2`,
passthrough), `transform_resample` does not look ahead: for every length `n` of the series there are increasing times `ts`, all less than `n`, such that the result has one sample and one
target for each of them, the target is the input target of that time, and the sample does not change when the data after that time change. -/
theorem C82_no_lookahead (steps : List (Step (Rows K) (List β) P (Nat × Nat))) (hl : ∀ s ∈ steps, SeriesStep s) (n : Nat) :
    NoLookahead n fun X y => transformResample steps X (some y) := by
  induction steps generalizing n with
  | nil => exact NoLookahead.id n
  | cons s t ih =>
    have ih := ih fun s hs => hl s (List.mem_cons_of_mem _ hs)
    by_cases hk : ∃ e, s.kind = .est e
    · obtain ⟨e, hk⟩ := hk
      have h1 := step_noLookahead s (hl s List.mem_cons_self) e hk n
      have := NoLookahead.comp n _ (fun X y => transformResample t X y) h1 ih
      have heq : (fun (X : Rows K) (y : List β) => transformResample (s :: t) X (some y)) =
          fun X y => (transformResampleOne (X, some y) (e, s.state)) >>= fun r => transformResample t r.1 r.2 := by
        funext X y
        unfold transformResample
        rw [iter_cons_est s t e hk, List.foldlM_cons]
      rw [heq]
      exact this
    · have hk' : ∀ e, s.kind ≠ .est e := fun e he => hk ⟨e, he⟩
      have heq : (fun (X : Rows K) (y : List β) => transformResample (s :: t) X (some y)) = fun X y => transformResample t X (some y) := by
        funext X y
        unfold transformResample
        rw [iter_cons_skip s t hk']
      rw [heq]
      exact ih n

/-- **C16.** Pipelines of the library's time-series steps return as many samples as targets. -/
theorem C16_series_chain (steps : List (Step (Rows K) (List β) P (Nat × Nat))) (hl : ∀ s ∈ steps, SeriesStep s) (X : Rows K) (y : List β) (hxy : X.length = y.length)
    (X' : Rows K) (y' : Option (List β)) (h : transformResample steps X (some y) = .ok (X', y')) : ∃ z, y' = some z ∧ X'.length = z.length := by
  obtain ⟨ts, _, _, h3⟩ := C82_no_lookahead steps hl X.length
  obtain ⟨h4, ⟨z, hz, h5, _⟩, _⟩ := h3 X y X' y' rfl hxy.symm h
  exact ⟨z, hz, by rw [h4, h5]⟩

/-- Unfitted steps: the parameters of `SingleTakensEmbedding` are at least one, and the dimension is at least two unless the parameters are searched. -/
inductive SeriesConfig : Step (Rows K) (List β) P (Nat × Nat) → Prop
  | passthrough (name st) : SeriesConfig ⟨name, .passthrough, st⟩
  | none (name st) : SeriesConfig ⟨name, .none, st⟩
  | sliding (name st size stride) : 2 ≤ size → 1 ≤ stride → SeriesConfig ⟨name, .est (slidingStep size stride), st⟩
  | resampler (name st period) : 1 ≤ period → SeriesConfig ⟨name, .est (resamplerStep period), st⟩
  | returns (name st) : SeriesConfig ⟨name, .est returnStep, st⟩
  | logReturns (name st log) : SeriesConfig ⟨name, .est (logReturnStep log), st⟩
  | takens {F : Type} [Field F] [LinearOrder F] (name st search) (mi : Rows K → Nat → F) (fnn τ₀ d₀ stride) : 1 ≤ τ₀ → 1 ≤ d₀ → (search = false → 2 ≤ d₀) → 1 ≤ stride →
      SeriesConfig ⟨name, .est (takensStep search mi fnn τ₀ d₀ stride), st⟩

/-- **C82, C16.** The same after `fit`, with the Takens parameters given or searched for: `fit(X, y)` on any data gives a pipeline that does not look ahead. -/
theorem C82_no_lookahead_after_fit (steps : List (Step (Rows K) (List β) P (Nat × Nat))) (hl : ∀ s ∈ steps, SeriesConfig s) (X₀ : Rows K) (y₀ : Option (List β)) (fp : Dict P)
    (h : (fit steps X₀ y₀ fp).2 = .ok ()) (n : Nat) : NoLookahead n fun X y => transformResample (fit steps X₀ y₀ fp).1 X (some y) := by
  apply C82_no_lookahead
  have hlaw : ∀ s ∈ steps, Lawful s := by
    intro s hs e he
    cases hl s hs <;> cases he <;> exact Or.inr (mixin_isResampler _ _ _)
  intro s' hs'
  obtain ⟨s, hs, hn, hk, hor⟩ := fit_states steps hlaw X₀ y₀ fp h s' hs'
  obtain ⟨name', kind', st'⟩ := s'
  simp only at hn hk
  subst hn hk
  cases hl s hs with
  | passthrough => exact .passthrough _ _
  | none => exact .none _ _
  | sliding _ _ size stride h1 h2 => exact .sliding _ _ _ _ h1 h2
  | resampler _ _ p h1 => exact .resampler _ _ _ h1
  | returns => exact .returns _ _
  | logReturns _ _ log => exact .logReturns _ _ _
  | takens name st search mi fnn τ₀ d₀ stride h1 h2 h3 h4 =>
    rcases hor with hor | ⟨e, Xi, yi, prm, he, hfit⟩
    · exact absurd rfl (hor _)
    · cases he
      simp only [takensStep, mixin] at hfit
      cases hq : singleTakensFit search (mi Xi) (fnn Xi) τ₀ d₀ with
      | error err => simp [hq] at hfit
      | ok q =>
        simp only [hq, Prod.mk.injEq, and_true] at hfit
        subst hfit
        obtain ⟨τ, d⟩ := q
        cases search with
        | true =>
          obtain ⟨a1, _, a3, _⟩ := C07_search_dimension_ge_two _ _ _ _ _ _ h1 h2 hq
          exact .takens _ _ _ _ _ _ _ _ _ a1 a3 h4
        | false =>
          simp only [singleTakensFit, Bool.false_eq_true, if_false, Except.ok.injEq, Prod.mk.injEq] at hq
          obtain ⟨rfl, rfl⟩ := hq
          exact .takens _ _ _ _ _ _ _ _ _ h1 (h3 rfl) h4

end Chain

section Examples

local instance : Sub (Arr Int) := ⟨fun a _ => a⟩
local instance : Div (Arr Int) := ⟨fun a _ => a⟩

/-- Returns, then every second sample, then windows of two samples. -/
def exChain : List (Step (Rows Int) (List Nat) Nat (Nat × Nat)) :=
  [⟨['a'], .est returnStep, (0, 0)⟩, ⟨['b'], .est (resamplerStep 2), (0, 0)⟩, ⟨['c'], .passthrough, (0, 0)⟩, ⟨['d'], .est (slidingStep 2 1), (0, 0)⟩]

example : ∀ s ∈ exChain, SeriesConfig s := by
  intro s hs
  simp only [exChain, List.mem_cons, List.not_mem_nil, or_false] at hs
  rcases hs with rfl | rfl | rfl | rfl
  · exact .returns _ _
  · exact .resampler _ _ _ (by decide)
  · exact .passthrough _ _
  · exact .sliding _ _ _ _ (by decide) (by decide)

example : ((fit exChain [.num 1, .num 2, .num 4, .num 7, .num 11, .num 16] (some [0, 1, 2, 3, 4, 5]) []).2).isOk = true := by decide

example : (fun r => (r.1.length, r.2)) <$> transformResample exChain [.num 1, .num 2, .num 4, .num 7, .num 11, .num 16] (some [0, 1, 2, 3, 4, 5]) = .ok (2, some [3, 5]) := by decide

end Examples

end Gtda.Pipeline
