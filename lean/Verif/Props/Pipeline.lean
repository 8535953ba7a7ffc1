import Verif.Spec.Pipeline

set_option autoImplicit false

/-!
# Properties of `Pipeline` (C14, C15)
-/

namespace Gtda.Pipeline
open Gtda.Py

variable {V Y P S : Type}

/-! ### Laws of the mixins -/

theorem thenCall_isFitThen {α : Type} (fit : S → V → Option Y → Dict P → S × PyM Unit) (g : S → V → Option Y → PyM α) :
    IsFitThen fit g (fun s X y prm => thenCall (fit s X y prm) fun s' => g s' X y) := by
  intro s X y prm
  constructor
  · intro s' h; simp [thenCall, h]
  · intro s' err h; simp [thenCall, h]

/-- Every class built on `TransformerResamplerMixin` obeys the laws of a resampler. -/
theorem mixin_isResampler (fit : S → V → Option Y → Dict P → S × PyM Unit) (tr : S → V → PyM V) (rs : S → Option Y → PyM Y) : IsResampler (mixin fit tr rs) :=
  ⟨tr, rs, _, _, _, rfl, rfl, rfl, thenCall_isFitThen fit fun s X _ => tr s X, rfl, fun _ _ _ => rfl, rfl, thenCall_isFitThen fit _⟩

/-- Every class built on `TransformerMixin` obeys the laws of a transformer. -/
theorem plainMixin_isTransformer (fit : S → V → Option Y → Dict P → S × PyM Unit) (tr : S → V → PyM V) : IsTransformer (plainMixin fit tr) :=
  ⟨tr, _, rfl, rfl, thenCall_isFitThen fit fun s X _ => tr s X, rfl, rfl, rfl⟩

/-! ### Fitting in sequence -/

/-- One step: fitting it as a step that is not final. -/
theorem fitOne_spec (e : Est V Y P S) (he : IsTransformer e ∨ IsResampler e) (s : S) (X : V) (y : Option Y) (prm : Dict P) (st : S) (X' : V) (y' : Option Y)
    (h : fitOne e s X y prm = (st, .ok (X', y'))) :
    e.fit s X y prm = (st, .ok ()) ∧ (y.isSome → y'.isSome) ∧ (∀ tr, e.transform = some tr → tr st X = .ok X') ∧
      (y.isSome → transformResampleOne (X, y) (e, st) = .ok (X', y')) ∧ e.transform.isSome := by
  rcases hf : e.fit s X y prm with ⟨s1, r1⟩
  rcases he with ⟨tr, ft, h1, h2, h3, h4, h5, h6⟩ | ⟨tr, rs, ft, trs, ftrs, h1, h2, h3, h4, h5, h6, h7, h8⟩
  · simp only [fitOne, h4, h6, Option.isSome_none, Bool.or_self, Bool.false_and, Bool.false_eq_true, if_false, fitTransformOne, h2] at h
    cases r1 with
    | error err => rw [(h3 s X y prm).2 s1 err hf] at h; simp at h
    | ok u =>
      rw [(h3 s X y prm).1 s1 hf] at h
      cases ht : tr s1 X with
      | error err => simp [ht] at h
      | ok x =>
        simp only [ht, Prod.mk.injEq, Except.ok.injEq] at h
        obtain ⟨rfl, rfl, rfl⟩ := h
        refine ⟨rfl, id, ?_, ?_, by simp [h1]⟩
        · intro tr' h'; rw [h1] at h'; cases h'; exact ht
        · intro _; simp [transformResampleOne, h5, attr, h1, ht]
  · simp only [fitOne, h2, h7, Option.isSome_some, Bool.or_self, Bool.true_and] at h
    by_cases hy : y.isSome
    · simp only [hy, if_true, fitTransformResampleOne, h7] at h
      cases r1 with
      | error err => rw [(h8 s X y prm).2 s1 err hf] at h; simp at h
      | ok u =>
        rw [(h8 s X y prm).1 s1 hf, h6] at h
        cases ht : tr s1 X with
        | error err => simp [ht] at h
        | ok x =>
          cases hr : rs s1 y with
          | error err => simp [ht, hr] at h
          | ok yr =>
            simp only [ht, hr, ok_bind, Prod.mk.injEq, Except.ok.injEq] at h
            obtain ⟨rfl, rfl, rfl⟩ := h
            refine ⟨rfl, by simp, ?_, ?_, by simp [h1]⟩
            · intro tr' h'; rw [h1] at h'; cases h'; exact ht
            · intro _; simp [transformResampleOne, h5, h6, ht, hr]
    · simp only [hy, Bool.false_eq_true, if_false, fitTransformOne, h3] at h
      cases r1 with
      | error err => rw [(h4 s X y prm).2 s1 err hf] at h; simp at h
      | ok u =>
        rw [(h4 s X y prm).1 s1 hf] at h
        cases ht : tr s1 X with
        | error err => simp [ht] at h
        | ok x =>
          simp only [ht, Prod.mk.injEq, Except.ok.injEq] at h
          obtain ⟨rfl, rfl, rfl⟩ := h
          refine ⟨rfl, id, ?_, fun hh => absurd hh hy, by simp [h1]⟩
          intro tr' h'; rw [h1] at h'; cases h'; exact ht

theorem Lawful.front {s : Step V Y P S} (h : Lawful s) : LawfulFront s := by
  intro e he
  rcases h e he with ⟨tr, ft, h1, h2, h3, h4, h5, h6⟩ | ⟨tr, rs, ft, trs, ftrs, h1, h2, h3, h4, h5, h6, h7, h8⟩
  · refine Or.inl ⟨tr, h1, ?_, h4, h5, h6⟩
    intro ft' h'
    rw [h2] at h'
    cases h'
    exact h3
  · refine Or.inr ⟨tr, rs, trs, h1, h2, ?_, h5, h6, ?_⟩
    · intro ft' h'
      rw [h3] at h'
      cases h'
      exact h4
    · intro f' h'
      rw [h7] at h'
      cases h'
      exact h8

/-- The same for steps without the combined methods. -/
theorem fitOne_front (e : Est V Y P S) (he : IsFrontTransformer e ∨ IsFrontResampler e) (s : S) (X : V) (y : Option Y) (prm : Dict P) (st : S) (X' : V) (y' : Option Y)
    (h : fitOne e s X y prm = (st, .ok (X', y'))) :
    e.fit s X y prm = (st, .ok ()) ∧ (y.isSome → y'.isSome) ∧ (∀ tr, e.transform = some tr → tr st X = .ok X') ∧
      (y.isSome → transformResampleOne (X, y) (e, st) = .ok (X', y')) ∧ e.transform.isSome := by
  rcases he with ⟨tr, h1, h3, h4, h5, h6⟩ | ⟨tr, rs, trs, h1, h2, h4, h5, h6, h8⟩
  · let ft : S → V → Option Y → Dict P → S × PyM V := e.fitTransform.getD fun s X y prm => thenCall (e.fit s X y prm) fun s' => tr s' X
    let e2 : Est V Y P S := { e with fitTransform := some ft }
    have hft : IsFitThen e.fit (fun s X _ => tr s X) ft := by
      cases hf : e.fitTransform with
      | none => simpa [ft, hf] using thenCall_isFitThen e.fit fun s X _ => tr s X
      | some g => simpa [ft, hf] using h3 g hf
    have hone : fitOne e2 s X y prm = fitOne e s X y prm := by
      have : fitTransformOne e2 s X y prm = fitTransformOne e s X y prm := by
        cases hf : e.fitTransform with
        | none => simp [fitTransformOne, e2, ft, hf, attr, h1]
        | some g => simp [fitTransformOne, e2, ft, hf]
      unfold fitOne
      rw [this]
      rfl
    have h2 : IsTransformer e2 := ⟨tr, ft, h1, rfl, hft, h4, h5, h6⟩
    exact fitOne_spec e2 (Or.inl h2) s X y prm st X' y' (by rw [hone, h])
  · let ft : S → V → Option Y → Dict P → S × PyM V := e.fitTransform.getD fun s X y prm => thenCall (e.fit s X y prm) fun s' => tr s' X
    let ftrs : S → V → Option Y → Dict P → S × PyM (V × Option Y) :=
      e.fitTransformResample.getD fun s X y prm => thenCall (e.fit s X y prm) fun s' => trs s' X y
    let e2 : Est V Y P S := { e with fitTransform := some ft, fitTransformResample := some ftrs }
    have hft : IsFitThen e.fit (fun s X _ => tr s X) ft := by
      cases hf : e.fitTransform with
      | none => simpa [ft, hf] using thenCall_isFitThen e.fit fun s X _ => tr s X
      | some g => simpa [ft, hf] using h4 g hf
    have hftrs : IsFitThen e.fit trs ftrs := by
      cases hf : e.fitTransformResample with
      | none => simpa [ftrs, hf] using thenCall_isFitThen e.fit trs
      | some g => simpa [ftrs, hf] using h8 g hf
    have hone : fitOne e2 s X y prm = fitOne e s X y prm := by
      have e1 : fitTransformOne e2 s X y prm = fitTransformOne e s X y prm := by
        cases hf : e.fitTransform with
        | none => simp [fitTransformOne, e2, ft, hf, attr, h1]
        | some g => simp [fitTransformOne, e2, ft, hf]
      have e3 : fitTransformResampleOne e2 s X y prm = fitTransformResampleOne e s X y prm := by
        cases hf : e.fitTransformResample with
        | none => simp [fitTransformResampleOne, e2, ftrs, hf, attr, h5]
        | some g => simp [fitTransformResampleOne, e2, ftrs, hf]
      unfold fitOne
      rw [e1, e3]
      simp [e2, h2]
    have h7 : IsResampler e2 := ⟨tr, rs, ft, trs, ftrs, h1, h2, rfl, hft, h5, h6, rfl, hftrs⟩
    exact fitOne_spec e2 (Or.inr h7) s X y prm st X' y' (by rw [hone, h])

theorem iter_nil : iter ([] : List (Step V Y P S)) = [] := rfl

theorem iter_cons_est (s : Step V Y P S) (t : List (Step V Y P S)) (e : Est V Y P S) (h : s.kind = .est e) : iter (s :: t) = (e, s.state) :: iter t := by
  simp [iter, h]

theorem iter_cons_skip (s : Step V Y P S) (t : List (Step V Y P S)) (h : ∀ e, s.kind ≠ .est e) : iter (s :: t) = iter t := by
  unfold iter
  rw [List.filterMap_cons]
  cases hk : s.kind with
  | none => rfl
  | passthrough => rfl
  | est e => exact absurd hk (h e)

theorem iter_append (a b : List (Step V Y P S)) : iter (a ++ b) = iter a ++ iter b := by simp [iter]

/-- A loop that succeeds: each step was fitted once, on the output of the previous ones, and the fitted steps, applied again to the input, give the same output. -/
theorem fitLoop_spec (fps : List (Name × Dict P)) : ∀ (front : List (Step V Y P S)) (X : V) (y : Option Y) (front' : List (Step V Y P S)) (X' : V) (y' : Option Y),
    (∀ s ∈ front, LawfulFront s) → fitLoop fps front X y = (front', .ok (X', y')) →
    (y.isSome → y'.isSome) ∧
    (iter front').foldlM (fun X es => do (← attr es.1.transform) es.2 X) X = .ok X' ∧
    (y.isSome → (iter front').foldlM transformResampleOne (X, y) = .ok (X', y')) ∧
    front'.length = front.length ∧
    ∀ (i : Nat) (s : Step V Y P S), front[i]? = some s → ∃ s', front'[i]? = some s' ∧ s'.name = s.name ∧ s'.kind = s.kind ∧
      ∀ e, s.kind = .est e → ∃ prm Xi yi, Dict.get fps s.name = .ok prm ∧ e.fit s.state Xi yi prm = (s'.state, .ok ()) := by
  intro front
  induction front with
  | nil =>
    intro X y front' X' y' _ h
    simp only [fitLoop, Prod.mk.injEq, Except.ok.injEq] at h
    obtain ⟨rfl, rfl, rfl⟩ := h
    exact ⟨id, rfl, fun _ => rfl, rfl, by simp⟩
  | cons s t ih =>
    intro X y front' X' y' hl h
    have hlt : ∀ s ∈ t, LawfulFront s := fun s hs => hl s (List.mem_cons_of_mem _ hs)
    by_cases hk : ∃ e, s.kind = .est e
    · obtain ⟨e, hk⟩ := hk
      have he := hl s List.mem_cons_self e hk
      simp only [fitLoop, hk] at h
      cases hg : Dict.get fps s.name with
      | error err => simp [hg] at h
      | ok prm =>
        simp only [hg] at h
        rcases ho : fitOne e s.state X y prm with ⟨st, r⟩
        cases r with
        | error err => simp [ho] at h
        | ok r =>
          obtain ⟨X1, y1⟩ := r
          simp only [ho] at h
          obtain ⟨h1, h2, h3, h4, h5⟩ := fitOne_front e he _ _ _ _ _ _ _ ho
          rcases hr : fitLoop fps t X1 y1 with ⟨t', r'⟩
          rw [hr] at h
          simp only [Prod.mk.injEq] at h
          obtain ⟨rfl, rfl⟩ := h
          obtain ⟨i1, i2, i3, i4, i5⟩ := ih X1 y1 t' X' y' hlt hr
          refine ⟨fun h => i1 (h2 h), ?_, ?_, by simp [i4], ?_⟩
          · rw [iter_cons_est _ _ e (by rfl), List.foldlM_cons]
            obtain ⟨tr, htr⟩ := Option.isSome_iff_exists.1 h5
            simp only [htr, attr, ok_bind, h3 tr htr]
            exact i2
          · intro hy
            rw [iter_cons_est _ _ e (by rfl), List.foldlM_cons]
            simp only [h4 hy, ok_bind]
            exact i3 (h2 hy)
          · intro i s0 hs0
            cases i with
            | zero =>
              simp only [List.getElem?_cons_zero, Option.some.injEq] at hs0
              subst hs0
              refine ⟨_, List.getElem?_cons_zero, rfl, hk.symm, ?_⟩
              intro e' he'
              rw [hk] at he'; cases he'
              exact ⟨prm, X, y, hg, h1⟩
            | succ i =>
              simp only [List.getElem?_cons_succ] at hs0 ⊢
              exact i5 i s0 hs0
    · have hk' : ∀ e, s.kind ≠ .est e := fun e he => hk ⟨e, he⟩
      have h' : (s :: (fitLoop fps t X y).1, (fitLoop fps t X y).2) = (front', .ok (X', y')) := by
        rw [← h]
        cases hks : s.kind with
        | none => simp [fitLoop, hks]
        | passthrough => simp [fitLoop, hks]
        | est e => exact absurd hks (hk' e)
      rcases hr : fitLoop fps t X y with ⟨t', r'⟩
      rw [hr] at h'
      simp only [Prod.mk.injEq] at h'
      obtain ⟨rfl, rfl⟩ := h'
      obtain ⟨i1, i2, i3, i4, i5⟩ := ih X y t' X' y' hlt hr
      refine ⟨i1, ?_, ?_, by simp [i4], ?_⟩
      · rw [iter_cons_skip _ _ hk']; exact i2
      · rw [iter_cons_skip _ _ hk']; exact i3
      · intro i s0 hs0
        cases i with
        | zero =>
          simp only [List.getElem?_cons_zero, Option.some.injEq] at hs0
          subst hs0
          exact ⟨_, List.getElem?_cons_zero, rfl, rfl, fun e he => absurd he (hk' e)⟩
        | succ i =>
          simp only [List.getElem?_cons_succ] at hs0 ⊢
          exact i5 i s0 hs0

/-- What `_fit` has done when it succeeds. -/
theorem fitInner_spec (steps : List (Step V Y P S)) (X : V) (y : Option Y) (fp : Dict P) (front' : List (Step V Y P S)) (r : Fitted V Y P S)
    (h : fitInner steps X y fp = (front', .ok r)) :
    ∃ fps, validateSteps steps = .ok () ∧ routeParams steps fp = .ok fps ∧ fitLoop fps steps.dropLast X y = (front', .ok (r.X, r.y)) ∧ steps = steps.dropLast ++ [r.final] ∧
      ∀ e, r.final.kind = .est e → Dict.get fps r.final.name = .ok r.params := by
  unfold fitInner at h
  cases hv : validateSteps steps with
  | error err => simp [hv] at h
  | ok u =>
    simp only [hv] at h
    cases hp : routeParams steps fp with
    | error err => simp [hp] at h
    | ok fps =>
      simp only [hp] at h
      rcases hl : fitLoop fps steps.dropLast X y with ⟨fr, r'⟩
      cases r' with
      | error err => simp [hl] at h
      | ok Xy =>
        obtain ⟨X', y'⟩ := Xy
        simp only [hl] at h
        cases hlast : steps.getLast? with
        | none => simp [hlast] at h
        | some s =>
          have hs : steps = steps.dropLast ++ [s] := by
            obtain ⟨l, rfl⟩ := List.getLast?_eq_some_iff.1 hlast
            simp
          simp only [hlast] at h
          cases hk : s.kind with
          | none =>
            simp only [hk, Prod.mk.injEq, Except.ok.injEq] at h
            obtain ⟨rfl, rfl⟩ := h
            exact ⟨fps, rfl, rfl, hl, hs, fun e he => by simp [hk] at he⟩
          | passthrough =>
            simp only [hk, Prod.mk.injEq, Except.ok.injEq] at h
            obtain ⟨rfl, rfl⟩ := h
            exact ⟨fps, rfl, rfl, hl, hs, fun e he => by simp [hk] at he⟩
          | est e =>
            simp only [hk] at h
            cases hg : Dict.get fps s.name with
            | error err => simp [hg] at h
            | ok prm =>
              simp only [hg, Prod.mk.injEq, Except.ok.injEq] at h
              obtain ⟨rfl, rfl⟩ := h
              exact ⟨fps, rfl, rfl, hl, hs, fun _ _ => hg⟩

theorem append_bind {α β : Type} (f : β → α → PyM β) (a b : List α) (x : β) : (a ++ b).foldlM f x = a.foldlM f x >>= fun z => b.foldlM f z := by
  rw [List.foldlM_append]

/-! ### C14 -/

/-- **C14.** In a pipeline of transformers and resamplers (of any length, with passthrough steps; only the final one needs the combined methods), `fit_transform_resample(X, y)` leaves the steps in the state in which `fit(X, y)` leaves
them, and returns what `transform_resample(X, y)` then returns; if one of the two raises, so does the other, with the same exception. -/
theorem C14_fit_transform_resample (steps : List (Step V Y P S)) (hl : ∀ s ∈ steps.dropLast, LawfulFront s) (hfin : ∀ s, steps.getLast? = some s → Lawful s) (X : V) (y : Y) (fp : Dict P) :
    (fitTransformResample steps X (some y) fp).1 = (fit steps X (some y) fp).1 ∧
    (fitTransformResample steps X (some y) fp).2 =
      (fit steps X (some y) fp).2 >>= fun _ => transformResample (fit steps X (some y) fp).1 X (some y) >>= fun r => .ok (some r) := by
  unfold fitTransformResample fit withFinal
  rcases hf : fitInner steps X (some y) fp with ⟨front, r⟩
  cases r with
  | error err => simp
  | ok r =>
    obtain ⟨fps, _, _, h3, h4, _⟩ := fitInner_spec steps X (some y) fp front r hf
    have hlast : Lawful r.final := hfin _ (by rw [h4]; simp)
    obtain ⟨i1, i2, i3, _⟩ := fitLoop_spec fps _ X (some y) front r.X r.y hl h3
    have i3 := i3 rfl
    have hcut : ∀ fin : Step V Y P S, transformResample (front ++ [fin]) X (some y) = (iter [fin]).foldlM transformResampleOne (r.X, r.y) := by
      intro fin
      unfold transformResample
      rw [iter_append, append_bind, i3]
      rfl
    simp only
    cases hk : r.final.kind with
    | none => simp [hcut, iter, hk]
    | passthrough => simp [hcut, iter, hk]
    | est e =>
      simp only
      rcases hfit : e.fit r.final.state r.X r.y r.params with ⟨s1, r1⟩
      rcases hlast e hk with ⟨tr, ft, h1, h2, h3, h4, h5, h6⟩ | ⟨tr, rs, ft, trs, ftrs, h1, h2, h3, h4, h5, h6, h7, h8⟩
      · cases r1 with
        | error err => simp [h6, h2, (h3 _ _ _ _).2 s1 err hfit]
        | ok u =>
          simp only [h6, h2, (h3 _ _ _ _).1 s1 hfit, hcut, ok_bind, true_and, iter, List.filterMap_cons, List.filterMap_nil, List.foldlM_cons, List.foldlM_nil, transformResampleOne, h5,
            attr, h1]
          cases tr s1 r.X <;> simp
      · cases r1 with
        | error err => simp [h7, (h8 _ _ _ _).2 s1 err hfit]
        | ok u =>
          simp only [h7, (h8 _ _ _ _).1 s1 hfit, hcut, ok_bind, true_and, iter, List.filterMap_cons, List.filterMap_nil, List.foldlM_cons, List.foldlM_nil, transformResampleOne, h5]
          cases trs s1 r.X r.y <;> simp

/-- **C14.** In a pipeline of transformers and resamplers (with or without the combined methods), `fit_transform(X, y)`, with or without targets, leaves the steps in the state in which `fit(X, y)` leaves them, and returns what
`transform(X)` then returns (or raises the same exception). -/
theorem C14_fit_transform (steps : List (Step V Y P S)) (hl : ∀ s ∈ steps, LawfulFront s) (X : V) (y : Option Y) (fp : Dict P) :
    (fitTransform steps X y fp).1 = (fit steps X y fp).1 ∧
    (fitTransform steps X y fp).2 = (fit steps X y fp).2 >>= fun _ => transform (fit steps X y fp).1 X := by
  unfold fitTransform fit withFinal
  rcases hf : fitInner steps X y fp with ⟨front, r⟩
  cases r with
  | error err => simp
  | ok r =>
    obtain ⟨fps, _, _, h3, h4, _⟩ := fitInner_spec steps X y fp front r hf
    have hlast : LawfulFront r.final := hl _ (by rw [h4]; simp)
    obtain ⟨i1, i2, _⟩ := fitLoop_spec fps _ X y front r.X r.y (fun s hs => hl s (List.dropLast_subset _ hs)) h3
    have hcut : ∀ fin : Step V Y P S, transform (front ++ [fin]) X = (iter [fin]).foldlM (fun X es => do (← attr es.1.transform) es.2 X) r.X := by
      intro fin
      unfold transform
      rw [iter_append, append_bind, i2]
      rfl
    simp only
    cases hk : r.final.kind with
    | none => simp [hcut, iter, hk]
    | passthrough => simp [hcut, iter, hk]
    | est e =>
      simp only
      rcases hfit : e.fit r.final.state r.X r.y r.params with ⟨s1, r1⟩
      have : ∃ tr, e.transform = some tr ∧ ∀ ft, e.fitTransform = some ft → IsFitThen e.fit (fun s X _ => tr s X) ft := by
        rcases hlast e hk with ⟨tr, h1, h2, _⟩ | ⟨tr, rs, trs, h1, _, h3, _⟩
        · exact ⟨tr, h1, h2⟩
        · exact ⟨tr, h1, h3⟩
      obtain ⟨tr, h1, h3⟩ := this
      cases h2 : e.fitTransform with
      | none =>
        cases r1 with
        | error err => simp [thenCall]
        | ok u =>
          simp only [thenCall, hcut, ok_bind, true_and, iter, List.filterMap_cons, List.filterMap_nil, List.foldlM_cons, List.foldlM_nil, attr, h1]
          cases tr s1 r.X <;> simp
      | some ft =>
        cases r1 with
        | error err => simp [(h3 ft h2 _ _ _ _).2 s1 err hfit]
        | ok u =>
          simp only [(h3 ft h2 _ _ _ _).1 s1 hfit, hcut, ok_bind, true_and, iter, List.filterMap_cons, List.filterMap_nil, List.foldlM_cons, List.foldlM_nil, attr, h1]
          cases tr s1 r.X <;> simp

/-- **C14.** If the steps before the final estimator are transformers and resamplers and `fit(X, y)` succeeds, then `score(X, y)` scores the final estimator on the pair on which it was
fitted. -/
theorem C14_score_on_training_data (front : List (Step V Y P S)) (hl : ∀ s ∈ front, LawfulFront s) (final : Step V Y P S) (e : Est V Y P S) (hk : final.kind = .est e)
    (sc : S → V → Option Y → PyM P) (hsc : e.score = some sc) (X : V) (y : Y) (fp : Dict P) (h : (fit (front ++ [final]) X (some y) fp).2 = .ok ()) :
    ∃ Xt yr prm st, e.fit final.state Xt (some yr) prm = (st, .ok ()) ∧
      score (fit (front ++ [final]) X (some y) fp).1 X (some y) = sc st Xt (some yr) := by
  unfold fit withFinal at h ⊢
  rcases hf : fitInner (front ++ [final]) X (some y) fp with ⟨front', r⟩
  rw [hf] at h
  cases r with
  | error err => simp at h
  | ok r =>
    obtain ⟨fps, _, _, h3, h4, _⟩ := fitInner_spec _ X (some y) fp front' r hf
    simp only [List.dropLast_concat] at h3 h4
    have hfin : final = r.final := by simpa using h4
    obtain ⟨i1, i2, i3, _⟩ := fitLoop_spec fps _ X (some y) front' r.X r.y hl h3
    have i3 := i3 rfl
    obtain ⟨yr, hyr⟩ := Option.isSome_iff_exists.1 (i1 rfl)
    subst hfin
    simp only [hk] at h ⊢
    rcases hfit : e.fit r.final.state r.X r.y r.params with ⟨s1, r1⟩
    rw [hfit] at h
    simp only at h
    subst h
    refine ⟨r.X, yr, r.params, s1, by rw [← hyr]; exact hfit, ?_⟩
    unfold score
    rw [hyr] at hfit i3
    simp only [List.dropLast_concat, i3, ok_bind, List.getLast?_concat, Option.toList_some, hyr]
    simp [attr, hsc, hfit, iter]

/-- **C14 needs `fit_transform`**: if the final step transforms but has neither `fit_transform` nor `fit_transform_resample`, then `fit_transform_resample` returns `None` and does not even
fit that step, while `fit` and `transform_resample` work. -/
theorem C14_refuted_no_fit_transform :
    ∃ (steps : List (Step Nat Nat Nat Nat)), fitTransformResample steps 5 (some 7) [] = (steps, .ok none) ∧ (fit steps 5 (some 7) []).2 = .ok () ∧
      (fit steps 5 (some 7) []).1.map (fun s => s.state) = [5] ∧ transformResample (fit steps 5 (some 7) []).1 5 (some 7) = .ok (10, some 7) :=
  ⟨[⟨['a'], .est { fit := fun _ X _ _ => (X, .ok ()), transform := some fun s X => .ok (s + X) }, 0⟩], rfl, by decide, by decide, by decide⟩

/-- `fit_transform` fits that step. -/
example : (fitTransform [(⟨['a'], .est { fit := fun _ X _ _ => (X, .ok ()), transform := some fun s X => .ok (s + X) }, 0⟩ : Step Nat Nat Nat Nat)] 5 none []).2 = .ok 10 := by decide

/-- A transformer for examples: adds to its input the number stored by `fit`, which is the input plus the sum of the fit parameters. -/
def exAdd : Est Nat Nat Nat Nat := plainMixin (fun _ X _ prm => (X + (prm.map Prod.snd).sum, .ok ())) fun s X => .ok (X + s)

/-- A resampler for examples: doubles data, and adds to the targets the number stored by `fit`. -/
def exDouble : Est Nat Nat Nat Nat :=
  mixin (fun _ _ y prm => (y.getD 0 + (prm.map Prod.snd).sum, .ok ())) (fun _ X => .ok (2 * X)) fun s y => match y with | some y => .ok (y + s) | none => .error .valueError

/-- A pipeline for examples. -/
def exSteps : List (Step Nat Nat Nat Nat) := [⟨['a'], .est exAdd, 0⟩, ⟨['b'], .passthrough, 0⟩, ⟨['c'], .est exDouble, 0⟩, ⟨['d'], .none, 0⟩, ⟨['e'], .est exAdd, 0⟩]

/-- A resampler with only `fit`, `transform`, `resample` and `transform_resample` may stand before the final step. -/
def exBare : Est Nat Nat Nat Nat := { exDouble with fitTransform := none, fitTransformResample := none }

example : LawfulFront (⟨['b'], .est exBare, 0⟩ : Step Nat Nat Nat Nat) := by
  intro e he
  cases he
  exact Or.inr ⟨_, _, _, rfl, rfl, by simp [exBare], rfl, fun _ _ _ => rfl, by simp [exBare]⟩

example : (fitTransformResample [⟨['b'], .est exBare, 0⟩, ⟨['e'], .est exAdd, 0⟩] 3 (some 10) []).2 = .ok (some (12, some 20)) := by decide

theorem exSteps_lawful : ∀ s ∈ exSteps, Lawful s := by
  intro s hs e he
  simp only [exSteps, List.mem_cons, List.not_mem_nil, or_false] at hs
  rcases hs with rfl | rfl | rfl | rfl | rfl
  · cases he; exact Or.inl (plainMixin_isTransformer _ _)
  · cases he
  · cases he; exact Or.inr (mixin_isResampler _ _ _)
  · cases he
  · cases he; exact Or.inl (plainMixin_isTransformer _ _)

example : (fitTransformResample exSteps 3 (some 10) [("a__u".toList, 1)]).2 = .ok (some (28, some 20)) := by decide
example : (fit exSteps 3 (some 10) [("a__u".toList, 1)]).1.map (fun s => s.state) = [4, 0, 10, 0, 14] := by decide
example : transformResample (fit exSteps 3 (some 10) [("a__u".toList, 1)]).1 3 (some 10) = .ok (28, some 20) := by decide
example : transform (fit exSteps 3 none [("a__u".toList, 1)]).1 3 = .ok 28 := by decide

/-! ### C15 -/

theorem split2_spec (n : Name) : (∀ a b, split2 n = some (a, b) → FirstSplit n a b) ∧ (split2 n = none → ∀ a b, n ≠ a ++ '_' :: '_' :: b) := by
  fun_induction split2 n with
  | case1 => simp
  | case2 t =>
    refine ⟨?_, by simp⟩
    intro a b h
    simp only [Option.some.injEq, Prod.mk.injEq] at h
    obtain ⟨rfl, rfl⟩ := h
    exact ⟨rfl, fun _ _ _ => Nat.zero_le _⟩
  | case3 c t hne ih =>
    have key : ∀ a' b', c :: t = a' ++ '_' :: '_' :: b' → ∃ a'', a' = c :: a'' ∧ t = a'' ++ '_' :: '_' :: b' := by
      intro a' b' h
      cases a' with
      | nil =>
        simp only [List.nil_append, List.cons.injEq] at h
        exact absurd h.2 (hne b' h.1)
      | cons x a'' =>
        simp only [List.cons_append, List.cons.injEq] at h
        exact ⟨a'', by rw [h.1], h.2⟩
    constructor
    · intro a b h
      simp only [Option.map_eq_some_iff, Prod.exists, Prod.mk.injEq] at h
      obtain ⟨a0, b0, h0, rfl, rfl⟩ := h
      obtain ⟨h1, h2⟩ := ih.1 a0 b0 h0
      refine ⟨by simp [h1], ?_⟩
      intro a' b' h'
      obtain ⟨a'', rfl, h''⟩ := key a' b' h'
      simpa using h2 a'' b' h''
    · intro h a b h'
      simp only [Option.map_eq_none_iff] at h
      obtain ⟨a'', _, h''⟩ := key a b h'
      exact ih.2 h a'' b h''

theorem firstSplit_unique {n a b a' b' : Name} (h : FirstSplit n a b) (h' : FirstSplit n a' b') : a = a' ∧ b = b' := by
  have hlen : a.length = a'.length := le_antisymm (h.2 _ _ h'.1) (h'.2 _ _ h.1)
  have := h.1.symm.trans h'.1
  obtain ⟨h1, h2⟩ := List.append_inj this hlen
  exact ⟨h1, by simpa using h2⟩

theorem split2_eq_some_iff (n a b : Name) : split2 n = some (a, b) ↔ FirstSplit n a b := by
  refine ⟨(split2_spec n).1 a b, ?_⟩
  intro h
  cases hs : split2 n with
  | none => exact absurd h.1 ((split2_spec n).2 hs a b)
  | some p =>
    obtain ⟨h1, h2⟩ := firstSplit_unique ((split2_spec n).1 p.1 p.2 hs) h
    rw [← h1, ← h2]

/-- The parameters addressed to the step `n`. -/
def own (n : Name) (fp : Dict P) : Dict P :=
  fp.filterMap fun kv => match split2 kv.1 with
    | some (a, b) => if a = n then some (b, kv.2) else none
    | none => none

theorem mem_own (n : Name) (fp : Dict P) (p : Name) (v : P) : (p, v) ∈ own n fp ↔ ∃ k, (k, v) ∈ fp ∧ FirstSplit k n p := by
  unfold own
  rw [List.mem_filterMap]
  constructor
  · rintro ⟨⟨k, v'⟩, hk, h⟩
    cases hs : split2 k with
    | none => simp [hs] at h
    | some ab =>
      obtain ⟨a, b⟩ := ab
      simp only [hs] at h
      split_ifs at h with h1
      simp only [Option.some.injEq, Prod.mk.injEq] at h
      obtain ⟨rfl, rfl⟩ := h
      subst h1
      exact ⟨k, hk, (split2_eq_some_iff _ _ _).1 hs⟩
  · rintro ⟨k, hk, h⟩
    exact ⟨(k, v), hk, by simp [(split2_eq_some_iff _ _ _).2 h]⟩

theorem own_isDict (n : Name) (fp : Dict P) (h : IsDict fp) : IsDict (own n fp) := by
  unfold IsDict own at *
  induction fp with
  | nil => simp
  | cons kv t ih =>
    simp only [List.map_cons, List.nodup_cons] at h
    rw [List.filterMap_cons]
    cases hs : split2 kv.1 with
    | none => simpa [hs] using ih h.2
    | some ab =>
      obtain ⟨a, b⟩ := ab
      simp only
      by_cases ha : a = n
      · simp only [ha, if_true, List.map_cons, List.nodup_cons]
        refine ⟨?_, ih h.2⟩
        intro hmem
        rw [List.mem_map] at hmem
        obtain ⟨⟨b', v⟩, hbv, rfl⟩ := hmem
        obtain ⟨k, hk, hks⟩ := (mem_own n t b' v).1 hbv
        have h1 := (split2_eq_some_iff _ _ _).1 hs
        rw [ha] at h1
        apply h.1
        rw [h1.1, ← hks.1]
        exact List.mem_map_of_mem (f := Prod.fst) hk
      · simpa [ha] using ih h.2

theorem get_map {A : Type} (names : List Name) (g : Name → A) (n : Name) :
    Dict.get (names.map fun m => (m, g m)) n = if n ∈ names then .ok (g n) else .error .keyError := by
  unfold Dict.get
  induction names with
  | nil => simp
  | cons m t ih =>
    by_cases h : m = n
    · simp [h]
    · simp only [List.map_cons, List.find?_cons, h, decide_false]
      rw [ih]
      simp [Ne.symm h]

theorem set_map {A : Type} (names : List Name) (g : Name → A) (n : Name) (hn : n ∈ names) (v : A) :
    Dict.set (names.map fun m => (m, g m)) n v = names.map fun m => (m, if m = n then v else g m) := by
  unfold Dict.set
  rw [if_pos (by simpa using hn), List.map_map]
  apply List.map_congr_left
  intro m _
  by_cases h : m = n <;> simp [h]

/-- Names of the steps that are not `None`. -/
def liveNames (steps : List (Step V Y P S)) : List Name := (steps.filter fun s => !s.kind.isNone).map fun s => s.name

theorem emptyParams_eq (steps : List (Step V Y P S)) (h : (steps.map fun s => s.name).Nodup) : emptyParams steps = (liveNames steps).map fun m => (m, ([] : Dict P)) := by
  unfold emptyParams liveNames
  have hl : ((steps.filter fun s => !s.kind.isNone).map fun s => s.name).Nodup := h.sublist (List.filter_sublist.map _)
  generalize steps.filter (fun s => !s.kind.isNone) = l at hl
  suffices ∀ (l : List (Step V Y P S)) (acc : List (Name × Dict P)), (acc.map Prod.fst ++ l.map fun s => s.name).Nodup →
      l.foldl (fun d s => Dict.set d s.name []) acc = acc ++ (l.map fun s => s.name).map fun m => (m, ([] : Dict P)) by
    simpa using this l [] (by simpa using hl)
  intro l
  induction l with
  | nil => intro acc _; simp
  | cons s t ih =>
    intro acc hacc
    rw [List.foldl_cons]
    have hnot : s.name ∉ acc.map Prod.fst := by
      intro hm
      have := (List.nodup_append.1 hacc).2.2 _ hm s.name (by simp)
      exact this rfl
    have hset : Dict.set acc s.name ([] : Dict P) = acc ++ [(s.name, [])] := by
      unfold Dict.set
      rw [if_neg]
      simp only [List.any_eq_true, decide_eq_true_eq, not_exists, not_and]
      intro kv hkv heq
      exact hnot (by rw [← heq]; exact List.mem_map_of_mem (f := Prod.fst) hkv)
    rw [hset, ih _ (by simpa using hacc)]
    simp

theorem set_fresh {A : Type} (d : List (Name × A)) (k : Name) (v : A) (h : k ∉ d.map Prod.fst) : Dict.set d k v = d ++ [(k, v)] := by
  unfold Dict.set
  rw [if_neg]
  simp only [List.any_eq_true, decide_eq_true_eq, not_exists, not_and]
  intro kv hkv heq
  exact h (by rw [← heq]; exact List.mem_map_of_mem (f := Prod.fst) hkv)

theorem own_append (n : Name) (a b : Dict P) : own n (a ++ b) = own n a ++ own n b := by simp [own]

/-- Routing succeeds exactly when every parameter is addressed to a step, and then every step has the parameters addressed to it. -/
theorem route_spec (names : List Name) : ∀ (rest done : Dict P), IsDict (done ++ rest) →
    ((∀ kv ∈ rest, ∃ a b, split2 kv.1 = some (a, b) ∧ a ∈ names) →
      rest.foldlM routeOne (names.map fun m => (m, own m done)) = .ok (names.map fun m => (m, own m (done ++ rest)))) ∧
    ((∃ kv ∈ rest, ∀ a b, split2 kv.1 = some (a, b) → a ∉ names) →
      ∃ err, rest.foldlM routeOne (names.map fun m => (m, own m done)) = .error err ∧ (err = .valueError ∨ err = .keyError)) := by
  intro rest
  induction rest with
  | nil => intro done _; simp
  | cons kv t ih =>
    intro done hd
    have hd' : IsDict ((done ++ [kv]) ++ t) := by simpa using hd
    obtain ⟨ih1, ih2⟩ := ih (done ++ [kv]) hd'
    rw [List.foldlM_cons]
    cases hs : split2 kv.1 with
    | none =>
      have : routeOne (names.map fun m => (m, own m done)) kv = .error .valueError := by simp [routeOne, hs]
      rw [this]
      refine ⟨?_, fun _ => ⟨.valueError, rfl, Or.inl rfl⟩⟩
      intro h
      obtain ⟨a, b, h1, _⟩ := h kv List.mem_cons_self
      rw [hs] at h1; cases h1
    | some ab =>
      obtain ⟨a, b⟩ := ab
      by_cases ha : a ∈ names
      · have hfresh : b ∉ (own a done).map Prod.fst := by
          intro hb
          rw [List.mem_map] at hb
          obtain ⟨⟨b', v⟩, hbv, rfl⟩ := hb
          obtain ⟨k, hk, hks⟩ := (mem_own a done b' v).1 hbv
          have h1 := (split2_eq_some_iff _ _ _).1 hs
          unfold IsDict at hd
          rw [List.map_append] at hd
          refine (List.nodup_append.1 hd).2.2 k (List.mem_map_of_mem (f := Prod.fst) hk) kv.1 (by simp) ?_
          rw [h1.1]; exact hks.1
        have : routeOne (names.map fun m => (m, own m done)) kv = .ok (names.map fun m => (m, own m (done ++ [kv]))) := by
          simp only [routeOne, hs, get_map, ha, if_true, ok_bind, set_map names _ a ha, set_fresh _ _ _ hfresh, Except.ok.injEq]
          apply List.map_congr_left
          intro m _
          rw [own_append]
          by_cases hm : m = a
          · subst hm; simp [own, hs]
          · simp [own, hs, hm, Ne.symm hm]
        rw [this, ok_bind]
        constructor
        · intro h
          rw [ih1 fun kv' hkv' => h kv' (List.mem_cons_of_mem _ hkv')]
          simp
        · rintro ⟨kv', hkv', hbad⟩
          rcases List.mem_cons.1 hkv' with rfl | hkv'
          · exact absurd ha (hbad a b hs)
          · exact ih2 ⟨kv', hkv', hbad⟩
      · have : routeOne (names.map fun m => (m, own m done)) kv = .error .keyError := by simp [routeOne, hs, get_map, ha]
        rw [this]
        refine ⟨?_, fun _ => ⟨.keyError, rfl, Or.inr rfl⟩⟩
        intro h
        obtain ⟨a', b', h1, h2⟩ := h kv List.mem_cons_self
        rw [hs] at h1; cases h1
        exact absurd h2 ha

theorem validate_nodup (steps : List (Step V Y P S)) (h : validateSteps steps = .ok ()) :
    (steps.map fun s => s.name).Nodup ∧ ∀ s ∈ steps, split2 s.name = none := by
  simp only [validateSteps] at h
  split_ifs at h with h1 h2 h3 h4 h5
  refine ⟨by simpa using h2, ?_⟩
  intro s hs
  simp only [List.any_map, List.any_eq_true, Function.comp_apply, not_exists, not_and, Bool.not_eq_true, Option.isSome_eq_false_iff, Option.isNone_iff_eq_none] at h4
  exact h4 s hs

theorem routeParams_bad (steps : List (Step V Y P S)) (hv : validateSteps steps = .ok ()) (fp : Dict P) (hd : IsDict fp)
    (hbad : ∃ kv ∈ fp, ∀ a b, split2 kv.1 = some (a, b) → a ∉ liveNames steps) : ∃ err, routeParams steps fp = .error err ∧ (err = .valueError ∨ err = .keyError) := by
  unfold routeParams
  rw [emptyParams_eq _ (validate_nodup _ hv).1]
  have := (route_spec (liveNames steps) fp [] (by simpa using hd)).2 hbad
  simpa [own] using this

theorem routeParams_good (steps : List (Step V Y P S)) (hv : validateSteps steps = .ok ()) (fp : Dict P) (hd : IsDict fp) (fps : List (Name × Dict P))
    (h : routeParams steps fp = .ok fps) : fps = (liveNames steps).map fun m => (m, own m fp) := by
  by_cases hbad : ∃ kv ∈ fp, ∀ a b, split2 kv.1 = some (a, b) → a ∉ liveNames steps
  · obtain ⟨err, h1, _⟩ := routeParams_bad steps hv fp hd hbad
    rw [h1] at h; cases h
  · push Not at hbad
    have := (route_spec (liveNames steps) fp [] (by simpa using hd)).1 hbad
    unfold routeParams at h
    rw [emptyParams_eq _ (validate_nodup _ hv).1] at h
    simp only [own, List.filterMap_nil, List.nil_append] at this
    rw [this] at h
    cases h
    rfl

theorem validate_iff (steps : List (Step V Y P S)) : validateSteps steps = .ok () ↔ ValidSteps steps := by
  have h4 : (steps.map fun s => s.name).any (fun n => (split2 n).isSome) = true ↔ ¬ ∀ s ∈ steps, ∀ a b, s.name ≠ a ++ '_' :: '_' :: b := by
    rw [List.any_map, List.any_eq_true]
    push Not
    constructor
    · rintro ⟨s, hs, h⟩
      obtain ⟨p, hp⟩ := Option.isSome_iff_exists.1 h
      exact ⟨s, hs, p.1, p.2, ((split2_spec s.name).1 p.1 p.2 hp).1⟩
    · rintro ⟨s, hs, a, b, h⟩
      refine ⟨s, hs, ?_⟩
      cases hn : split2 s.name with
      | none => exact absurd h ((split2_spec s.name).2 hn a b)
      | some p => simp [hn]
  have h3 : (steps.map fun s => s.name).any (fun n => n ∈ ["steps".toList, "memory".toList, "verbose".toList]) = true ↔
      ¬ ∀ s ∈ steps, s.name ∉ ["steps".toList, "memory".toList, "verbose".toList] := by
    rw [List.any_map, List.any_eq_true]
    push Not
    simp only [Function.comp_apply, decide_eq_true_eq]
  have h5 : steps.dropLast.any (fun s => match s.kind with | .est e => e.transform.isNone | _ => false) = true ↔
      ¬ ∀ pre s post e, steps = pre ++ s :: post → post ≠ [] → s.kind = .est e → ∃ tr, e.transform = some tr := by
    rw [List.any_eq_true]
    push Not
    constructor
    · rintro ⟨s, hs, h⟩
      obtain ⟨pre, post, hpp⟩ := List.append_of_mem hs
      have hne : steps ≠ [] := by rintro rfl; cases hs
      cases hk : s.kind with
      | none => simp [hk] at h
      | passthrough => simp [hk] at h
      | est e =>
        simp only [hk, Option.isNone_iff_eq_none] at h
        refine ⟨pre, s, post ++ [steps.getLast hne], e, ?_, by simp, hk, by simp [h]⟩
        conv_lhs => rw [← List.dropLast_append_getLast hne, hpp]
        simp
    · rintro ⟨pre, s, post, e, hst, hne, hk, h⟩
      refine ⟨s, ?_, ?_⟩
      · rw [hst, List.dropLast_append_of_ne_nil (by simp), List.dropLast_cons_of_ne_nil hne]
        simp
      · rw [hk]
        cases ht : e.transform with
        | none => simp [ht]
        | some tr => exact absurd ht (h tr)
  unfold validateSteps ValidSteps
  dsimp only
  by_cases a1 : steps.isEmpty = true
  · rw [if_pos a1]; simp [List.isEmpty_iff.1 a1]
  rw [if_neg a1]
  by_cases a2 : (steps.map fun s => s.name).Nodup
  swap
  · rw [if_pos a2]; exact ⟨nofun, fun h => absurd h.2.1 a2⟩
  rw [if_neg (not_not.2 a2)]
  split_ifs with a3 a4 a5
  · exact ⟨nofun, fun h => absurd (fun s hs => (h.2.2.1 s hs).1) (h3.1 a3)⟩
  · exact ⟨nofun, fun h => absurd (fun s hs => (h.2.2.1 s hs).2) (h4.1 a4)⟩
  · exact ⟨nofun, fun h => absurd h.2.2.2 (h5.1 a5)⟩
  · rw [h3, not_not] at a3
    rw [h4, not_not] at a4
    have a6 := not_not.1 (fun h => a5 (h5.2 h))
    exact ⟨fun _ => ⟨fun h => a1 (by rw [h]; rfl), a2, fun s hs => ⟨a3 s hs, a4 s hs⟩, a6⟩, fun _ => rfl⟩

/-- **C15.** Steps that do not make up a pipeline make `fit` raise before any step is fitted. -/
theorem C15_invalid_steps (steps : List (Step V Y P S)) (h : ¬ ValidSteps steps) (X : V) (y : Option Y) (fp : Dict P) :
    (fit steps X y fp).1 = steps ∧ ((fit steps X y fp).2 = .error .valueError ∨ (fit steps X y fp).2 = .error .typeError) := by
  have he : ∃ err, validateSteps steps = .error err ∧ (err = .valueError ∨ err = .typeError) := by
    rw [← validate_iff] at h
    unfold validateSteps at h ⊢
    dsimp only at h ⊢
    split_ifs at h ⊢ <;> first | exact absurd rfl h | exact ⟨_, rfl, by simp⟩
  obtain ⟨err, h1, h2⟩ := he
  have hsteps : steps.dropLast ++ steps.getLast?.toList = steps := by
    rcases List.eq_nil_or_concat steps with rfl | ⟨l, a, rfl⟩
    · rfl
    · rw [List.concat_eq_append, List.dropLast_concat, List.getLast?_concat]; rfl
  have hf : fit steps X y fp = (steps, .error err) := by simp [fit, withFinal, fitInner, h1, hsteps]
  rw [hf]
  exact ⟨rfl, by simpa using h2⟩

/-- Two steps of the same name do not make up a pipeline, so `fit` raises. -/
example : ¬ ValidSteps [(⟨['a'], .passthrough, 0⟩ : Step Nat Nat Nat Nat), ⟨['a'], .passthrough, 0⟩] ∧
    (fit [(⟨['a'], .passthrough, 0⟩ : Step Nat Nat Nat Nat), ⟨['a'], .passthrough, 0⟩] 1 none []).2 = .error .valueError :=
  ⟨fun h => by simpa using h.2.1, by decide⟩

/-- **C15.** A fit parameter without double underscore, or whose part before the first double underscore is not the name of a step (or that of a step that is `None`), makes `fit` raise before
any step is fitted. -/
theorem C15_unknown_step (steps : List (Step V Y P S)) (hvalid : ValidSteps steps) (X : V) (y : Option Y) (fp : Dict P) (hd : IsDict fp) (kv : Name × P) (hkv : kv ∈ fp)
    (hbad : ∀ s ∈ steps, s.kind ≠ .none → ∀ p, ¬ FirstSplit kv.1 s.name p) :
    (fit steps X y fp).1 = steps ∧ ((fit steps X y fp).2 = .error .valueError ∨ (fit steps X y fp).2 = .error .keyError) := by
  have hv := (validate_iff steps).2 hvalid
  have : ∃ kv ∈ fp, ∀ a b, split2 kv.1 = some (a, b) → a ∉ liveNames steps := by
    refine ⟨kv, hkv, ?_⟩
    intro a b hs ha
    unfold liveNames at ha
    rw [List.mem_map] at ha
    obtain ⟨s, hs', rfl⟩ := ha
    refine hbad s (List.mem_of_mem_filter hs') (fun hk => ?_) b ((split2_eq_some_iff _ _ _).1 hs)
    have := List.of_mem_filter hs'
    rw [hk] at this
    cases this
  obtain ⟨err, h1, h2⟩ := routeParams_bad steps hv fp hd this
  have hne : steps ≠ [] := by
    rintro rfl
    simp [validateSteps] at hv
  have hsteps : steps.dropLast ++ steps.getLast?.toList = steps := by
    rw [List.getLast?_eq_getLast_of_ne_nil hne]
    simp [List.dropLast_append_getLast]
  have hfi : fitInner steps X y fp = (steps.dropLast, .error err) := by simp [fitInner, hv, h1]
  have hf : fit steps X y fp = (steps, .error err) := by simp [fit, withFinal, hfi, hsteps]
  rw [hf]
  exact ⟨rfl, by simpa using h2⟩

theorem mem_liveNames_est (steps : List (Step V Y P S)) (s : Step V Y P S) (hs : s ∈ steps) (e : Est V Y P S) (hk : s.kind = .est e) : s.name ∈ liveNames steps := by
  unfold liveNames
  exact List.mem_map.2 ⟨s, List.mem_filter.2 ⟨hs, by rw [hk]; rfl⟩, rfl⟩

/-- **C15.** When `fit` succeeds, every step has been fitted with exactly the parameters addressed to it: those whose name, split at the first double underscore, starts with the name of the
step. For a step whose name does not end with an underscore these are the parameters named `<step>__<param>`. -/
theorem C15_routing (steps : List (Step V Y P S)) (hl : ∀ s ∈ steps, Lawful s) (X : V) (y : Option Y) (fp : Dict P) (hd : IsDict fp) (h : (fit steps X y fp).2 = .ok ())
    (i : Nat) (s : Step V Y P S) (hi : steps[i]? = some s) (e : Est V Y P S) (hk : s.kind = .est e) :
    ∃ (prm : Dict P) (Xi : V) (yi : Option Y) (s' : Step V Y P S),
      (fit steps X y fp).1[i]? = some s' ∧ e.fit s.state Xi yi prm = (s'.state, .ok ()) ∧
      IsDict prm ∧ (∀ p v, (p, v) ∈ prm ↔ ∃ k, (k, v) ∈ fp ∧ FirstSplit k s.name p) ∧
      (s.name.getLast? ≠ some '_' → ∀ p v, (p, v) ∈ prm ↔ (s.name ++ '_' :: '_' :: p, v) ∈ fp) := by
  have hval : validateSteps steps = .ok () := by
    cases hv : validateSteps steps with
    | error err => simp [fit, withFinal, fitInner, hv] at h
    | ok u => rfl
  have hfinal : s.name.getLast? ≠ some '_' → ∀ p v, (p, v) ∈ own s.name fp ↔ (s.name ++ '_' :: '_' :: p, v) ∈ fp := by
    intro hlast p v
    rw [mem_own]
    constructor
    · rintro ⟨k, hk, hks⟩
      rw [← hks.1]; exact hk
    · intro hmem
      refine ⟨_, hmem, rfl, ?_⟩
      intro a' b' heq
      by_contra hlt
      push Not at hlt
      have hno := (split2_spec s.name).2 ((validate_nodup _ hval).2 s (List.mem_of_getElem? hi))
      obtain ⟨c, hc⟩ : ∃ c, s.name = a' ++ c := by
        have h3 := congrArg (List.take a'.length) heq
        rw [List.take_append_of_le_length (by omega), List.take_left' rfl] at h3
        exact ⟨s.name.drop a'.length, by conv_lhs => rw [← List.take_append_drop a'.length s.name, h3]⟩
      rw [hc, List.append_assoc, List.append_cancel_left_eq] at heq
      match c, hc, heq with
      | [], hc, _ => simp [hc] at hlt
      | [x], hc, heq =>
        simp only [List.cons_append, List.nil_append, List.cons.injEq] at heq
        apply hlast
        rw [hc, heq.1]; simp
      | x :: x' :: c', hc, heq =>
        simp only [List.cons_append, List.cons.injEq] at heq
        apply hno a' c'
        rw [hc, heq.1, heq.2.1]
  rcases hfi : fitInner steps X y fp with ⟨front, r⟩
  cases r with
  | error err => simp [fit, withFinal, hfi] at h
  | ok r =>
    obtain ⟨fps, h1, h2, h3, h4, h5⟩ := fitInner_spec steps X y fp front r hfi
    have hfps := routeParams_good steps hval fp hd fps h2
    have hlf : ∀ s ∈ steps.dropLast, LawfulFront s := fun s hs => (hl s (List.dropLast_subset _ hs)).front
    obtain ⟨_, _, _, i4, i5⟩ := fitLoop_spec fps _ X y front r.X r.y hlf h3
    have hget : Dict.get fps s.name = .ok (own s.name fp) := by
      rw [hfps, get_map, if_pos (mem_liveNames_est steps s (List.mem_of_getElem? hi) e hk)]
    refine ⟨own s.name fp, ?_⟩
    have hrest : IsDict (own s.name fp) ∧ (∀ p v, (p, v) ∈ own s.name fp ↔ ∃ k, (k, v) ∈ fp ∧ FirstSplit k s.name p) ∧
      (s.name.getLast? ≠ some '_' → ∀ p v, (p, v) ∈ own s.name fp ↔ (s.name ++ '_' :: '_' :: p, v) ∈ fp) := ⟨own_isDict _ _ hd, mem_own _ _, hfinal⟩
    rw [h4] at hi
    rcases Nat.lt_or_ge i steps.dropLast.length with hlt | hge
    · rw [List.getElem?_append_left hlt] at hi
      obtain ⟨s', hs', _, _, hfit⟩ := i5 i s hi
      obtain ⟨prm, Xi, yi, hp, hf⟩ := hfit e hk
      rw [hget] at hp; cases hp
      refine ⟨Xi, yi, s', ?_, hf, hrest⟩
      have hlt' : i < front.length := by omega
      unfold fit withFinal
      rw [hfi]
      cases hkf : r.final.kind <;> simp only [hkf] <;> rw [List.getElem?_append_left hlt'] <;> exact hs'
    · rw [List.getElem?_append_right hge] at hi
      have hz : i - steps.dropLast.length = 0 := by
        by_contra hne
        rw [List.getElem?_eq_none (by rw [List.length_singleton]; omega)] at hi
        cases hi
      rw [hz] at hi
      simp only [List.getElem?_cons_zero, Option.some.injEq] at hi
      subst hi
      have hp := h5 e hk
      rw [hget] at hp
      simp only [Except.ok.injEq] at hp
      have hfit : e.fit r.final.state r.X r.y r.params = ((e.fit r.final.state r.X r.y r.params).1, .ok ()) := by
        simp only [fit, withFinal, hfi, hk] at h
        rw [← h]
      refine ⟨r.X, r.y, { r.final with state := (e.fit r.final.state r.X r.y r.params).1 }, ?_, by rw [hp]; exact hfit, hrest⟩
      simp only [fit, withFinal, hfi, hk]
      rw [List.getElem?_append_right (by omega), i4, hz]
      rfl

example : (fit exSteps 3 (some 10) [("a__u".toList, 1), ("e__u__v".toList, 2), ("a__w".toList, 5)]).1.map (fun s => s.state) = [9, 0, 10, 0, 26] := by decide
example : (fit exSteps 3 (some 10) [("a__u".toList, 1), ("z__u".toList, 2)]).2 = .error .keyError := by decide
example : (fit exSteps 3 (some 10) [("a__u".toList, 1), ("a_u".toList, 2)]).2 = .error .valueError := by decide
example : ValidSteps exSteps := (validate_iff _).1 (by decide)

/-- **C15 is false of steps whose name ends with an underscore** (a valid name): the parameter `a___u` meant for the step `a_` reaches the step `a` as `_u`. -/
theorem C15_refuted_trailing_underscore : ∃ (steps : List (Step Nat Nat Nat Nat)) (fp : Dict Nat), ValidSteps steps ∧ steps.map (fun s => s.name) = ["a".toList, "a_".toList] ∧
    fp = [("a_".toList ++ "__".toList ++ "u".toList, 7)] ∧ (fit steps 1 none []).1.map (fun s => s.state) = [1, 2] ∧ (fit steps 1 none fp).1.map (fun s => s.state) = [8, 9] :=
  ⟨[⟨"a".toList, .est exAdd, 0⟩, ⟨"a_".toList, .est exAdd, 0⟩], _, (validate_iff _).1 (by decide), by decide, rfl, by decide, by decide⟩

example : routeParams [(⟨"a".toList, .est exAdd, 0⟩ : Step Nat Nat Nat Nat), ⟨"a_".toList, .est exAdd, 0⟩] [("a___u".toList, 7)] = .ok [("a".toList, [("_u".toList, 7)]), ("a_".toList, [])] := by decide

/-! ### C83, C84 -/

/-- **C83 is false.** `Pipeline.resample(y)` does not depend on its argument: it resamples `None`. -/
theorem C83_refuted_resample (steps : List (Step V Y P S)) (y₁ y₂ : Y) : resample steps y₁ = resample steps y₂ := rfl

/-- Consequence for pipelines of the library's resamplers, which raise when given `None`. -/
theorem C83_refuted_raises : ∃ (steps : List (Step Nat Nat Nat Nat)), (∀ s ∈ steps, Lawful s) ∧ transformResample steps 3 (some 10) = .ok (6, some 15) ∧
    resample steps (10 : Nat) = .error .valueError :=
  ⟨[⟨['c'], .est exDouble, 5⟩], by
    intro s hs e he
    simp only [List.mem_cons, List.not_mem_nil, or_false] at hs
    subst hs; cases he; exact Or.inr (mixin_isResampler _ _ _), by decide, by decide⟩

/-- **C83 (partial).** If the targets are passed as second argument and every step resamples, then `resample(_, y)` returns the targets that `transform_resample(X, y)` returns, for every `X`
on which no step raises. -/
theorem C83_resample_partial {A : Type} (steps : List (Step V Y P S)) (hl : ∀ s ∈ steps, ∀ e, s.kind = .est e → IsResampler e) (a : A) (X : V) (y : Option Y) (X' : V) (y' : Option Y)
    (h : transformResample steps X y = .ok (X', y')) : resample steps a y = .ok y' := by
  induction steps generalizing X y with
  | nil =>
    simp only [transformResample, iter_nil, List.foldlM_nil, pure_ok, Except.ok.injEq, Prod.mk.injEq] at h
    simp [resample, iter_nil, h.2]
  | cons s t ih =>
    have hlt : ∀ s ∈ t, ∀ e, s.kind = .est e → IsResampler e := fun s hs => hl s (List.mem_cons_of_mem _ hs)
    by_cases hk : ∃ e, s.kind = .est e
    · obtain ⟨e, hk⟩ := hk
      obtain ⟨tr, rs, ft, trs, ftrs, h1, h2, h3, h4, h5, h6, h7, h8⟩ := hl s List.mem_cons_self e hk
      unfold transformResample at h
      unfold resample
      rw [iter_cons_est s t e hk, List.foldlM_cons] at h ⊢
      simp only [transformResampleOne, h5, h6] at h
      simp only [attr, h2, ok_bind]
      cases ht : tr s.state X with
      | error err => simp [ht] at h
      | ok x =>
        cases hr : rs s.state y with
        | error err => simp [ht, hr] at h
        | ok yr =>
          simp only [ht, hr, ok_bind] at h
          simp only [ok_map, ok_bind]
          exact ih hlt x (some yr) h
    · have hk' : ∀ e, s.kind ≠ .est e := fun e he => hk ⟨e, he⟩
      unfold transformResample at h
      unfold resample
      rw [iter_cons_skip s t hk'] at h ⊢
      exact ih hlt X y h

example : resample [⟨['c'], .est exDouble, 5⟩, ⟨['d'], .est exDouble, 1⟩] () (some 10) = .ok (some 16) ∧
    transformResample [⟨['c'], .est exDouble, 5⟩, ⟨['d'], .est exDouble, 1⟩] 3 (some 10) = .ok (12, some 16) := by decide

/-- **C84 is false.** If the last estimator of the pipeline has an `inverse_transform` that takes only the data (as `Scaler.inverse_transform` does), then the pipeline's
`inverse_transform` raises `TypeError` on every input. -/
theorem C84_refuted_inverse (steps : List (Step V Y P S)) (e : Est V Y P S) (st : S) (f : S → V → PyM V) (hestimator : LastEstimator steps e st) (hinv : e.inverse = some (.one f))
    (X : V) (y : Option Y) : inverseTransform steps X y = .error .typeError := by
  have hlast : (iter steps).getLast? = some (e, st) := by
    obtain ⟨pre, s, post, rfl, hk, hst, hpost⟩ := hestimator
    have hp : iter post = [] := by
      unfold iter
      rw [List.filterMap_eq_nil_iff]
      intro t ht
      cases hkt : t.kind with
      | est e' => exact absurd hkt (hpost t ht e')
      | none => rfl
      | passthrough => rfl
    unfold iter at hp ⊢
    rw [List.filterMap_append, List.filterMap_cons, hp]
    simp [hk, hst]
  obtain ⟨l, hl⟩ := List.getLast?_eq_some_iff.1 hlast
  unfold inverseTransform
  rw [hl, List.reverse_append, List.reverse_singleton, List.singleton_append, List.foldlM_cons]
  simp [hinv, attr]

/-- A scaler whose `inverse_transform` takes the data only, followed by `'passthrough'`, meets the hypotheses. -/
example : LastEstimator [⟨['c'], .est exDouble, 5⟩, (⟨['s'], .est { exDouble with inverse := some (.one fun st x => .ok (x - st)) }, 3⟩ : Step Nat Nat Nat Nat), ⟨['p'], .passthrough, 0⟩]
    { exDouble with inverse := some (.one fun st x => .ok (x - st)) } 3 :=
  ⟨[⟨['c'], .est exDouble, 5⟩], _, [⟨['p'], .passthrough, 0⟩], rfl, rfl, rfl, fun t ht e' => by rw [List.mem_singleton] at ht; subst ht; nofun⟩

/-- **C84 (partial).** If every estimator has an `inverse_transform` that accepts two positional arguments and undoes its `transform`, then the pipeline's `inverse_transform` undoes its
`transform`. -/
theorem C84_inverse_partial (steps : List (Step V Y P S))
    (hl : ∀ s ∈ steps, ∀ e, s.kind = .est e → ∃ tr inv, e.transform = some tr ∧ e.inverse = some (.two inv) ∧ ∀ X X' y, tr s.state X = .ok X' → inv s.state X' y = .ok X)
    (X X' : V) (y : Option Y) (h : transform steps X = .ok X') : inverseTransform steps X' y = .ok X := by
  induction steps generalizing X with
  | nil =>
    simp only [transform, iter_nil, List.foldlM_nil, pure_ok, Except.ok.injEq] at h
    simp [inverseTransform, iter_nil, h]
  | cons s t ih =>
    have ih := ih fun s hs => hl s (List.mem_cons_of_mem _ hs)
    by_cases hk : ∃ e, s.kind = .est e
    · obtain ⟨e, hk⟩ := hk
      obtain ⟨tr, inv, h1, h2, h3⟩ := hl s List.mem_cons_self e hk
      unfold transform at h
      rw [iter_cons_est s t e hk, List.foldlM_cons] at h
      simp only [attr, h1, ok_bind] at h
      cases ht : tr s.state X with
      | error err => simp [ht] at h
      | ok x =>
        simp only [ht, ok_bind] at h
        have := ih x h
        unfold inverseTransform at this ⊢
        rw [iter_cons_est s t e hk, List.reverse_cons, append_bind, this]
        simp [attr, h2, h3 X x y ht]
    · have hk' : ∀ e, s.kind ≠ .est e := fun e he => hk ⟨e, he⟩
      unfold transform at h
      unfold inverseTransform
      rw [iter_cons_skip s t hk'] at h ⊢
      exact ih X h

end Gtda.Pipeline
