import Verif.Model.PipelineScore
import Verif.Props.PipelineSeries

set_option autoImplicit false

/-!
# C155: sample weights in `Pipeline.score`
-/

namespace Gtda.Props.PipelineScore

/-- As many increasing numbers below `n` as there are: all of them. -/
theorem increasing_all {n : Nat} {ts : List Nat} (h : ts.Pairwise (· < ·)) (hlt : ∀ t ∈ ts, t < n) (hl : n ≤ ts.length) (i t : Nat) (hi : ts[i]? = some t) : t = i ∧ ts.length = n := by
  have lower : ∀ (l : List Nat) (a : Nat), l.Pairwise (· < ·) → (∀ t ∈ l, a ≤ t) → ∀ (i t : Nat), l[i]? = some t → a + i ≤ t := by
    intro l
    induction l with
    | nil => intro a _ _ i t h; simp at h
    | cons b l ih =>
      intro a hp ha i t h
      rw [List.pairwise_cons] at hp
      cases i with
      | zero =>
        simp only [List.getElem?_cons_zero, Option.some.injEq] at h
        subst h
        simpa using ha b List.mem_cons_self
      | succ i =>
        have := ih (a + 1) hp.2 (fun t ht => by have := hp.1 t ht; have := ha b List.mem_cons_self; omega) i t (by simpa using h)
        omega
  have upper : ∀ (l : List Nat), l.Pairwise (· < ·) → (∀ t ∈ l, t < n) → ∀ (i t : Nat), l[i]? = some t → t + (l.length - i) ≤ n := by
    intro l
    induction l with
    | nil => intro _ _ i t h; simp at h
    | cons b l ih =>
      intro hp ha i t h
      rw [List.pairwise_cons] at hp
      cases i with
      | zero =>
        simp only [List.getElem?_cons_zero, Option.some.injEq] at h
        subst h
        cases l with
        | nil =>
          have := ha b List.mem_cons_self
          simp
          omega
        | cons c l =>
          have h1 := ih hp.2 (fun t ht => ha t (List.mem_cons_of_mem _ ht)) 0 c rfl
          have h2 := hp.1 c List.mem_cons_self
          simp only [List.length_cons] at h1 ⊢
          omega
      | succ i =>
        have := ih hp.2 (fun t ht => ha t (List.mem_cons_of_mem _ ht)) i t (by simpa using h)
        simp only [List.length_cons]
        omega
  have h1 := lower ts 0 h (fun _ _ => Nat.zero_le _) i t hi
  have h2 := upper ts h hlt i t hi
  have h3 : i < ts.length := (List.getElem?_eq_some_iff.1 hi).1
  omega

end Gtda.Props.PipelineScore

namespace Gtda.Pipeline
open Gtda.Py Gtda.TimeSeries Gtda.Props.PipelineScore

/-- **C155**: without weights, this is the `score` of C14 and C118. -/
theorem C155_without_weights {V Y P S W : Type} (front : List (Step V Y P S)) (final : Step V Y P S) (e : Est V Y P S) (hk : final.kind = .est e) (sc : S → V → Option Y → Option W → PyM P)
    (hsc : e.score = some fun s X y => sc s X y none) (X : V) (y : Option Y) : scoreWeighted front sc final.state X y none = score (front ++ [final]) X y := by
  unfold scoreWeighted score
  rw [List.dropLast_concat, List.getLast?_concat]
  congr 1
  funext Xy
  simp [iter, hk, attr, hsc]

/-- **C155**: if no step before the final one resamples, whatever the steps are, the final estimator is called with the targets and weights as given, and with the data transformed by these steps. -/
theorem C155_no_resampling {V Y P S W : Type} (front : List (Step V Y P S)) (hn : ∀ s ∈ front, ∀ e, s.kind = .est e → e.transformResample = none) (final : S → V → Option Y → Option W → PyM P) (st : S) (X : V)
    (y : Option Y) (w : Option W) : scoreWeighted front final st X y w = transform front X >>= fun Xt => final st Xt y w := by
  have hit : ∀ es ∈ iter front, es.1.transformResample = none := by
    intro es hes
    unfold iter at hes
    rw [List.mem_filterMap] at hes
    obtain ⟨s, hs, h⟩ := hes
    cases hk : s.kind with
    | none => simp [hk] at h
    | passthrough => simp [hk] at h
    | est e =>
      simp only [hk, Option.some.injEq] at h
      rw [← h]
      exact hn s hs e hk
  have key : ∀ (l : List (Est V Y P S × S)), (∀ es ∈ l, es.1.transformResample = none) → ∀ X : V,
      l.foldlM transformResampleOne (X, y) = (l.foldlM (fun X es => do (← attr es.1.transform) es.2 X) X) >>= fun Xt => Except.ok (Xt, y) := by
    intro l
    induction l with
    | nil => intro _ X; rfl
    | cons a l ih =>
      intro hl X
      have ha : transformResampleOne (X, y) a = (do (← attr a.1.transform) a.2 X) >>= fun Xt => Except.ok (Xt, y) := by
        unfold transformResampleOne
        rw [hl a List.mem_cons_self]
        simp only [bind_assoc]
      rw [List.foldlM_cons, List.foldlM_cons, ha]
      cases (do (← attr a.1.transform) a.2 X : PyM V) with
      | error e => rfl
      | ok Xt => exact ih (fun es h => hl es (List.mem_cons_of_mem _ h)) Xt
  unfold scoreWeighted
  rw [key _ hit, bind_assoc]
  unfold transform
  congr 1
  funext Xt
  cases w <;> rfl

section
variable {K β P W : Type} [Sub (Arr K)] [Div (Arr K)]

/-- **C155**, what is true: in a pipeline of time-series steps before a final estimator, for every length `n` of the series there are increasing times below `n` such that the final estimator sees one sample and one
target for each of them, the target being the one given for that time, *together with all the weights given*. If no sample is dropped, the weights are in place: sample `i` is that of time `i`. If samples are
dropped, there are more weights than samples, and an estimator that wants as many weights as samples refuses. -/
theorem C155_weights_partial (front : List (Step (Rows K) (List β) P (Nat × Nat))) (hl : ∀ s ∈ front, SeriesStep s) (n : Nat) :
    ∃ ts : List Nat, ts.Pairwise (· < ·) ∧ (∀ t ∈ ts, t < n) ∧
      ∀ (X : Rows K) (y : List β) (w : List W) (Xt : Rows K) (yr : Option (List β)), X.length = n → y.length = n → w.length = n → transformResample front X (some y) = .ok (Xt, yr) →
        Xt.length = ts.length ∧ (∃ z, yr = some z ∧ z.length = ts.length ∧ ∀ (i t : Nat), ts[i]? = some t → z[i]? = y[t]?) ∧
        ∀ (final : Nat × Nat → Rows K → Option (List β) → Option (List W) → PyM P) (st : Nat × Nat),
          scoreWeighted front final st X (some y) (some w) = final st Xt yr (some w) ∧
          (Xt.length = n → ∀ (i t : Nat), ts[i]? = some t → t = i) ∧
          (Xt.length < n → (∀ s X y w, w.length ≠ X.length → final s X y (some w) = .error .valueError) → scoreWeighted front final st X (some y) (some w) = .error .valueError) := by
  obtain ⟨ts, h1, h2, h3⟩ := C82_no_lookahead front hl n
  refine ⟨ts, h1, h2, fun X y w Xt yr hX hy hw hr => ?_⟩
  obtain ⟨g1, g2, _⟩ := h3 X y Xt yr hX hy hr
  have hsc : ∀ (final : Nat × Nat → Rows K → Option (List β) → Option (List W) → PyM P) (st : Nat × Nat), scoreWeighted front final st X (some y) (some w) = final st Xt yr (some w) := by
    intro final st
    have : scoreWeighted front final st X (some y) (some w) = transformResample front X (some y) >>= fun Xy => final st Xy.1 Xy.2 (some w) := rfl
    rw [this, hr]
    rfl
  refine ⟨g1, g2, fun final st => ⟨hsc final st, fun hn i t hi => ?_, fun hn hf => ?_⟩⟩
  · exact (increasing_all h1 h2 (by omega) i t hi).1
  · rw [hsc]
    exact hf st Xt yr w (by omega)

/-- **C155**, a remedy: weights that are resampled like targets, by `transform_resample` of the steps before the final one, are those of the times of the samples. -/
theorem C155_remedy (front : List (Step (Rows K) (List β) P (Nat × Nat))) (hl : ∀ s ∈ front, SeriesStep s) (n : Nat) :
    ∃ ts : List Nat, ts.Pairwise (· < ·) ∧ (∀ t ∈ ts, t < n) ∧
      ∀ (X : Rows K) (y w : List β) (Xt Xt' : Rows K) (yr wr : Option (List β)), X.length = n → y.length = n → w.length = n → transformResample front X (some y) = .ok (Xt, yr) →
        transformResample front X (some w) = .ok (Xt', wr) → Xt' = Xt ∧
        ∃ z v, yr = some z ∧ wr = some v ∧ z.length = Xt.length ∧ v.length = Xt.length ∧ ∀ (i t : Nat), ts[i]? = some t → z[i]? = y[t]? ∧ v[i]? = w[t]? := by
  obtain ⟨ts, h1, h2, h3⟩ := C82_no_lookahead front hl n
  refine ⟨ts, h1, h2, fun X y w Xt Xt' yr wr hX hy hw hr hr' => ?_⟩
  obtain ⟨g1, ⟨z, hz, hzl, hzt⟩, gsame⟩ := h3 X y Xt yr hX hy hr
  obtain ⟨g1', ⟨v, hv, hvl, hvt⟩, _⟩ := h3 X w Xt' wr hX hw hr'
  refine ⟨?_, z, v, hz, hv, by omega, by omega, fun i t hi => ⟨hzt i t hi, hvt i t hi⟩⟩
  apply List.ext_getElem?
  intro i
  by_cases hi : i < ts.length
  · exact (gsame X w Xt' wr hX hw hr' i ts[i] (List.getElem?_eq_getElem hi) rfl).symm
  · rw [List.getElem?_eq_none (by omega), List.getElem?_eq_none (by omega)]

end

section Examples

local instance : Sub (Arr Int) := ⟨fun a _ => a⟩
local instance : Div (Arr Int) := ⟨fun a _ => a⟩

/-- A final estimator for examples: the weighted sum of the targets; as many weights as samples are wanted. -/
def exWeightedSum (_ : Nat × Nat) (X : Rows Int) (y : Option (List Nat)) (w : Option (List Nat)) : PyM Nat :=
  match w with
  | none => .ok (y.getD []).sum
  | some w => if w.length ≠ X.length then .error .valueError else .ok (List.zipWith (· * ·) w (y.getD [])).sum

/-- … and one which uses the first weights, without comparing lengths. -/
def exWeightedSum' (_ : Nat × Nat) (_X : Rows Int) (y : Option (List Nat)) (w : Option (List Nat)) : PyM Nat := .ok (List.zipWith (· * ·) (w.getD []) (y.getD [])).sum

/-- **C155 is false if samples are dropped**: after `SlidingWindow(size=2)` with three samples there are two, with targets of times 1 and 2. `score` with weights 0, 1, 10 raises, although they were given for all of the
three samples; an estimator that does not compare lengths gives to time 1 the weight of time 0. -/
theorem C155_refuted_dropped_samples :
    let front : List (Step (Rows Int) (List Nat) Nat (Nat × Nat)) := [⟨['a'], .est (slidingStep 2 1), (0, 0)⟩]
    let X : Rows Int := [.num 1, .num 2, .num 4]
    (transformResample front X (some [5, 6, 7])).map (fun r => (r.1.length, r.2)) = .ok (2, some [6, 7]) ∧
      scoreWeighted front exWeightedSum (0, 0) X (some [5, 6, 7]) (some [0, 1, 10]) = .error .valueError ∧
      scoreWeighted front exWeightedSum' (0, 0) X (some [5, 6, 7]) (some [0, 1, 10]) = .ok (0 * 6 + 1 * 7) ∧ 0 * 6 + 1 * 7 ≠ 1 * 6 + 10 * 7 := by
  refine ⟨?_, ?_, ?_, ?_⟩ <;> decide

/-- Non-vacuity: the chain of returns, resampling and windows of C82 drops samples; with `Resampler(period=1)` nothing is dropped, and resampled weights are in place. -/
example : (∀ s X y w, w.length ≠ X.length → exWeightedSum s X y (some w) = .error .valueError) ∧
    scoreWeighted [⟨['b'], .est (resamplerStep 1), (0, 0)⟩, ⟨['c'], .passthrough, (0, 0)⟩] exWeightedSum (0, 0) [.num 1, .num 2, .num 4] (some [5, 6, 7]) (some [0, 1, 10]) = .ok 76 ∧
    scoreWeighted exChain exWeightedSum (0, 0) [.num 1, .num 2, .num 4, .num 7, .num 11, .num 16] (some [0, 1, 2, 3, 4, 5]) (some [1, 1, 1, 1, 1, 1]) = .error .valueError ∧
    (fun r => (r.1.length, r.2)) <$> transformResample exChain [.num 1, .num 2, .num 4, .num 7, .num 11, .num 16] (some [10, 11, 12, 13, 14, 15]) = .ok (2, some [13, 15]) := by
  refine ⟨fun s X y w h => ?_, ?_, ?_, ?_⟩
  · exact if_pos h
  all_goals decide

/-- Non-vacuity of `C155_no_resampling` and `C155_without_weights`: a step that only transforms. -/
example :
    let e : Est (Rows Int) (List Nat) Nat (Nat × Nat) := { slidingStep 2 1 with transformResample := none, score := some fun s X y => exWeightedSum s X y none }
    e.transformResample = none ∧ e.score = some (fun s X y => exWeightedSum s X y none) ∧
      scoreWeighted [⟨['a'], .est e, (0, 0)⟩] exWeightedSum' (0, 0) [.num 1, .num 2, .num 4] (some [5, 6, 7]) (some [0, 1, 10]) = .ok 76 ∧
      score [⟨['a'], .est e, (0, 0)⟩, ⟨['b'], .est e, (0, 0)⟩] [.num 1, .num 2, .num 4] (some [5, 6, 7]) = .ok 18 := by
  refine ⟨rfl, rfl, ?_, ?_⟩ <;> decide

end Examples

end Gtda.Pipeline
