import Verif.Spec.PipelineNesting
import Verif.Props.Pipeline
import Verif.Props.PipelineCache
import Mathlib.Data.List.Nodup
import Mathlib.Tactic.Common

/-!
# C118: pipelines as steps of pipelines; C119: methods of pipelines and names of steps
-/

set_option autoImplicit false
set_option linter.unusedSectionVars false

namespace Gtda.Props.PipelineNesting

open Py Gtda.Pipeline Gtda.PipelineNesting Gtda.Spec.PipelineNesting Gtda.PipelineCache Gtda.Spec.PipelineCache
open Gtda.Props.PipelineCache (fitted_eq)

variable {V Y P S : Type}

theorem put_states (steps : List (Step V Y P S)) : put steps (states steps) = steps := by
  unfold put states
  induction steps with
  | nil => rfl
  | cons s t ih => rw [List.map_cons, List.zipWith_cons_cons, ih]

/-! ### Lifted steps -/

theorem thenCall_lift {α : Type} (r : S × PyM Unit) (f : S → PyM α) : thenCall ([r.1], r.2) (fun st => lift0 f st) = ([(thenCall r f).1], (thenCall r f).2) := by
  obtain ⟨s, e | u⟩ := r <;> rfl

theorem fitTransformOne_lift (e : Est V Y P S) (s : S) (X : V) (y : Option Y) (prm : Dict P) :
    fitTransformOne (lift e) [s] X y prm = ([(fitTransformOne e s X y prm).1], (fitTransformOne e s X y prm).2) := by
  unfold fitTransformOne
  cases hf : e.fitTransform with
  | some f => simp [lift, hf, lift1]
  | none =>
    have h1 : (lift e).fitTransform = none := by simp [lift, hf]
    rw [h1]
    dsimp only
    rw [← thenCall_lift]
    congr 1
    funext st
    cases ht : e.transform with
    | none => rcases st with _ | ⟨a, _ | ⟨b, t⟩⟩ <;> simp [lift, ht, attr, lift0] <;> rfl
    | some g => rcases st with _ | ⟨a, _ | ⟨b, t⟩⟩ <;> simp [lift, ht, attr, lift0]

theorem fitTransformResampleOne_lift (e : Est V Y P S) (s : S) (X : V) (y : Option Y) (prm : Dict P) :
    fitTransformResampleOne (lift e) [s] X y prm = ([(fitTransformResampleOne e s X y prm).1], (fitTransformResampleOne e s X y prm).2) := by
  unfold fitTransformResampleOne
  cases hf : e.fitTransformResample with
  | some f => simp [lift, hf, lift1]
  | none =>
    have h1 : (lift e).fitTransformResample = none := by simp [lift, hf]
    rw [h1]
    dsimp only
    rw [← thenCall_lift]
    congr 1
    funext st
    cases ht : e.transformResample with
    | none => rcases st with _ | ⟨a, _ | ⟨b, t⟩⟩ <;> simp [lift, ht, attr, lift0] <;> rfl
    | some g => rcases st with _ | ⟨a, _ | ⟨b, t⟩⟩ <;> simp [lift, ht, attr, lift0]

theorem fitOne_lift (e : Est V Y P S) (s : S) (X : V) (y : Option Y) (prm : Dict P) :
    fitOne (lift e) [s] X y prm = ([(fitOne e s X y prm).1], (fitOne e s X y prm).2) := by
  unfold fitOne
  have h : ((lift e).resample.isSome || (lift e).fitTransformResample.isSome) = (e.resample.isSome || e.fitTransformResample.isSome) := by
    unfold lift
    cases e.resample <;> cases e.fitTransformResample <;> rfl
  rw [h]
  split
  · exact fitTransformResampleOne_lift e s X y prm
  · rw [fitTransformOne_lift]
    rcases fitTransformOne e s X y prm with ⟨s', r | r⟩ <;> rfl

theorem lastCall_lift (m : Method) (e : Est V Y P S) (s : S) (X : V) (y : Option Y) (prm : Dict P) :
    lastCall m (lift e) [s] X y prm = ([(lastCall m e s X y prm).1], (lastCall m e s X y prm).2) := by
  cases m with
  | fit => rfl
  | fitTransform =>
    dsimp only [lastCall]
    rw [fitTransformOne_lift]
  | fitTransformResample =>
    dsimp only [lastCall]
    cases h1 : e.fitTransformResample with
    | some f =>
      have : (lift e).fitTransformResample = some (lift1 f) := by simp [lift, h1]
      rw [this]
      rfl
    | none =>
      have e1 : (lift e).fitTransformResample = none := by simp [lift, h1]
      rw [e1]
      cases h2 : e.fitTransform with
      | some f =>
        have : (lift e).fitTransform = some (lift1 f) := by simp [lift, h2]
        rw [this]
        rfl
      | none =>
        have : (lift e).fitTransform = none := by simp [lift, h2]
        rw [this]

theorem fitLoop_cons_est (fps : List (Name × Dict P)) (s : Step V Y P S) (t : List (Step V Y P S)) (e : Est V Y P S) (hk : s.kind = .est e) (X : V) (y : Option Y) (prm : Dict P)
    (hg : Dict.get fps s.name = .ok prm) :
    fitLoop fps (s :: t) X y = match fitOne e s.state X y prm with
      | (st, .error err) => ({ s with state := st } :: t, .error err)
      | (st, .ok r) => ({ s with state := st } :: (fitLoop fps t r.1 r.2).1, (fitLoop fps t r.1 r.2).2) := by
  rw [fitLoop]
  rw [hk]
  dsimp only
  rw [hg]
  dsimp only
  rcases fitOne e s.state X y prm with ⟨st, err | r⟩ <;> rfl

theorem fitLoop_cons_skip (fps : List (Name × Dict P)) (s : Step V Y P S) (t : List (Step V Y P S)) (hk : ∀ e, s.kind ≠ .est e) (X : V) (y : Option Y) :
    fitLoop fps (s :: t) X y = (s :: (fitLoop fps t X y).1, (fitLoop fps t X y).2) := by
  rw [fitLoop]
  cases h : s.kind with
  | none => rfl
  | passthrough => rfl
  | est e => exact absurd h (hk e)

/-- The parameters of the estimators among the steps are known. -/
def Known (fps : List (Name × Dict P)) (steps : List (Step V Y P S)) (f : Name → Dict P) : Prop := ∀ s ∈ steps, ∀ e, s.kind = .est e → Dict.get fps s.name = .ok (f s.name)

theorem fitLoop_append (fps : List (Name × Dict P)) (a b : List (Step V Y P S)) : ∀ (X : V) (y : Option Y),
    fitLoop fps (a ++ b) X y = match fitLoop fps a X y with
      | (a', .error err) => (a' ++ b, .error err)
      | (a', .ok r) => (a' ++ (fitLoop fps b r.1 r.2).1, (fitLoop fps b r.1 r.2).2) := by
  induction a with
  | nil => intro X y; rfl
  | cons s t ih =>
    intro X y
    rw [List.cons_append]
    by_cases hk : ∃ e, s.kind = .est e
    · obtain ⟨e, hk⟩ := hk
      cases hg : Dict.get fps s.name with
      | error err =>
        rw [fitLoop, fitLoop]
        simp only [hk, hg, List.cons_append]
      | ok prm =>
        rw [fitLoop_cons_est fps s _ e hk X y prm hg, fitLoop_cons_est fps s _ e hk X y prm hg]
        rcases fitOne e s.state X y prm with ⟨st, err | r⟩
        · rfl
        · dsimp only
          rw [ih]
          rcases fitLoop fps t r.1 r.2 with ⟨t', err | z⟩ <;> rfl
    · have hk' : ∀ e, s.kind ≠ .est e := fun e he => hk ⟨e, he⟩
      rw [fitLoop_cons_skip _ _ _ hk', fitLoop_cons_skip _ _ _ hk', ih]
      rcases fitLoop fps t X y with ⟨t', err | z⟩ <;> rfl

theorem liftStep_est (s : Step V Y P S) (e : Est V Y P S) (hk : s.kind = .est e) : liftStep s = ⟨s.name, .est (lift e), [s.state]⟩ := by
  unfold liftStep
  rw [hk]

theorem liftStep_skip (s : Step V Y P S) (hk : ∀ e, s.kind ≠ .est e) : ∀ e, (liftStep s).kind ≠ .est e := by
  intro e
  unfold liftStep
  cases h : s.kind with
  | none => exact nofun
  | passthrough => exact nofun
  | est e' => exact absurd h (hk e')

theorem fitLoop_lift (fO fF : List (Name × Dict P)) (f : Name → Dict P) (steps : List (Step V Y P S)) (hF : Known fF steps f) (hO : ∀ s ∈ steps, ∀ e, s.kind = .est e → Dict.get fO s.name = .ok (f s.name)) :
    ∀ (X : V) (y : Option Y), fitLoop fO (steps.map liftStep) X y = ((fitLoop fF steps X y).1.map liftStep, (fitLoop fF steps X y).2) := by
  induction steps with
  | nil => intro X y; rfl
  | cons s t ih =>
    intro X y
    have iht := ih (fun s hs => hF s (List.mem_cons_of_mem _ hs)) (fun s hs => hO s (List.mem_cons_of_mem _ hs))
    rw [List.map_cons]
    by_cases hk : ∃ e, s.kind = .est e
    · obtain ⟨e, hk⟩ := hk
      have hg := hF s List.mem_cons_self e hk
      have hg' := hO s List.mem_cons_self e hk
      have hl := liftStep_est s e hk
      rw [fitLoop_cons_est fF s t e hk X y _ hg, fitLoop_cons_est fO (liftStep s) (t.map liftStep) (lift e) (by rw [hl]) X y (f s.name) (by rw [hl]; exact hg')]
      have hst : (liftStep s).state = [s.state] := rfl
      rw [hst, fitOne_lift]
      rcases fitOne e s.state X y (f s.name) with ⟨st, err | r⟩
      · dsimp only
        rw [List.map_cons, liftStep_est { s with state := st } e hk, hl]
      · dsimp only
        rw [iht, List.map_cons, liftStep_est { s with state := st } e hk, hl]
    · have hk' : ∀ e, s.kind ≠ .est e := fun e he => hk ⟨e, he⟩
      rw [fitLoop_cons_skip _ _ _ hk', fitLoop_cons_skip _ _ _ (liftStep_skip s hk'), iht]
      rfl

/-- A loop depends only on the parameters of the estimators among the steps. -/
theorem fitLoop_params (fI fF : List (Name × Dict P)) (f : Name → Dict P) (steps : List (Step V Y P S)) (hF : Known fF steps f) (hI : Known fI steps f) :
    ∀ (X : V) (y : Option Y), fitLoop fI steps X y = fitLoop fF steps X y := by
  induction steps with
  | nil => intro X y; rfl
  | cons s t ih =>
    intro X y
    have iht := ih (fun s hs => hF s (List.mem_cons_of_mem _ hs)) (fun s hs => hI s (List.mem_cons_of_mem _ hs))
    by_cases hk : ∃ e, s.kind = .est e
    · obtain ⟨e, hk⟩ := hk
      rw [fitLoop_cons_est fF s t e hk X y _ (hF s List.mem_cons_self e hk), fitLoop_cons_est fI s t e hk X y _ (hI s List.mem_cons_self e hk)]
      rcases fitOne e s.state X y (f s.name) with ⟨st, err | r⟩
      · rfl
      · dsimp only
        rw [iht]
    · have hk' : ∀ e, s.kind ≠ .est e := fun e he => hk ⟨e, he⟩
      rw [fitLoop_cons_skip _ _ _ hk', fitLoop_cons_skip _ _ _ hk', iht]

theorem fitLoop_length (fps : List (Name × Dict P)) (steps : List (Step V Y P S)) : ∀ (X : V) (y : Option Y), (fitLoop fps steps X y).1.length = steps.length := by
  induction steps with
  | nil => intro X y; rfl
  | cons s t ih =>
    intro X y
    by_cases hk : ∃ e, s.kind = .est e
    · obtain ⟨e, hk⟩ := hk
      cases hg : Dict.get fps s.name with
      | error err =>
        rw [fitLoop]
        simp only [hk, hg]
      | ok prm =>
        rw [fitLoop_cons_est fps s _ e hk X y prm hg]
        rcases fitOne e s.state X y prm with ⟨st, err | r⟩
        · rfl
        · simp [ih]
    · rw [fitLoop_cons_skip _ _ _ fun e he => hk ⟨e, he⟩]
      simp [ih]

/-! ### A pipeline as a step -/

/-- The final step, called by one of the three methods. -/
def finish (m : Method) (f : Name → Dict P) (s : Step V Y P S) (X : V) (y : Option Y) : Step V Y P S × PyM (Out V Y) :=
  match s.kind with
  | .est e => ({ s with state := (lastCall m e s.state X y (f s.name)).1 }, (lastCall m e s.state X y (f s.name)).2)
  | _ => (s, .ok (passOut m X y))

/-- The three methods for valid steps and parameters. -/
theorem fitted_known (m : Method) (front : List (Step V Y P S)) (last : Step V Y P S) (X : V) (y : Option Y) (prm : Dict P) (hv : validateSteps (front ++ [last]) = .ok ())
    (fps : List (Name × Dict P)) (hr : routeParams (front ++ [last]) prm = .ok fps) (f : Name → Dict P) (hf : Known fps (front ++ [last]) f) :
    fitted m (front ++ [last]) X y prm = match fitLoop fps front X y with
      | (front', .error err) => (front' ++ [last], .error err)
      | (front', .ok r) => (front' ++ [(finish m f last r.1 r.2).1], (finish m f last r.1 r.2).2) := by
  rw [fitted_eq]
  unfold fitInner
  rw [hv, hr]
  dsimp only
  rw [List.dropLast_concat, List.getLast?_concat]
  rcases fitLoop fps front X y with ⟨front', err | r⟩
  · rfl
  · dsimp only
    unfold finish
    cases hk : last.kind with
    | none => simp only [hk]
    | passthrough => simp only [hk]
    | est e =>
      dsimp only
      rw [hf last (by simp) e hk]
      dsimp only
      rw [hk]

theorem map_data_inj (a b : PyM V) (h : (Out.data <$> a : PyM (Out V Y)) = Out.data <$> b) : a = b := by
  cases a with
  | error e =>
    cases b with
    | error e' => cases h; rfl
    | ok v => cases h
  | ok v =>
    cases b with
    | error e' => cases h
    | ok v' => cases h; rfl

theorem map_pair_inj (a b : PyM (Option (V × Option Y))) (h : (Out.pair <$> a : PyM (Out V Y)) = Out.pair <$> b) : a = b := by
  cases a with
  | error e =>
    cases b with
    | error e' => cases h; rfl
    | ok v => cases h
  | ok v =>
    cases b with
    | error e' => cases h
    | ok v' => cases h; rfl

theorem fitOne_none (e : Est V Y P S) (s : S) (X : V) (prm : Dict P) :
    fitOne e s X none prm = ((fitTransformOne e s X none prm).1, (fun X' => (X', none)) <$> (fitTransformOne e s X none prm).2) := by
  unfold fitOne
  rw [if_neg (by simp)]
  rcases fitTransformOne e s X none prm with ⟨a, b | b⟩ <;> rfl

theorem fitLoop_none (fps : List (Name × Dict P)) (steps : List (Step V Y P S)) : ∀ (X : V) (r : V × Option Y), (fitLoop fps steps X none).2 = .ok r → r.2 = none := by
  induction steps with
  | nil =>
    intro X r h
    cases h
    rfl
  | cons s t ih =>
    intro X r h
    by_cases hk : ∃ e, s.kind = .est e
    · obtain ⟨e, hk⟩ := hk
      cases hg : Dict.get fps s.name with
      | error err =>
        rw [fitLoop] at h
        simp only [hk, hg] at h
        cases h
      | ok prm =>
        rw [fitLoop_cons_est fps s _ e hk X none prm hg, fitOne_none] at h
        rcases hf : fitTransformOne e s.state X none prm with ⟨a, b | b⟩
        · rw [hf] at h
          cases h
        · rw [hf] at h
          exact ih b r h
    · rw [fitLoop_cons_skip _ _ _ fun e he => hk ⟨e, he⟩] at h
      exact ih X r h

/-- The final step of the inner pipeline, as a step in the middle of the flat one. -/
theorem fitLoop_single (fps : List (Name × Dict P)) (f : Name → Dict P) (last : Step V Y P S) (hf : ∀ e, last.kind = .est e → Dict.get fps last.name = .ok (f last.name)) (X : V) (y : Option Y) :
    fitLoop fps [last] X y = match last.kind with
      | .est e => ([{ last with state := (fitOne e last.state X y (f last.name)).1 }], (fitOne e last.state X y (f last.name)).2)
      | _ => ([last], .ok (X, y)) := by
  by_cases hk : ∃ e, last.kind = .est e
  · obtain ⟨e, hk⟩ := hk
    rw [fitLoop_cons_est fps last [] e hk X y _ (hf e hk)]
    cases hl : last.kind with
    | none => rw [hk] at hl; cases hl
    | passthrough => rw [hk] at hl; cases hl
    | est e' =>
      rw [hk] at hl
      cases hl
      dsimp only
      rcases fitOne e last.state X y (f last.name) with ⟨a, b | b⟩ <;> rfl
  · rw [fitLoop_cons_skip _ _ _ fun e he => hk ⟨e, he⟩]
    cases hl : last.kind with
    | none => rfl
    | passthrough => rfl
    | est e => exact absurd ⟨e, hl⟩ hk

theorem states_append (a b : List (Step V Y P S)) : states (a ++ b) = states a ++ states b := List.map_append

theorem nest_middle (front : List (Step V Y P S)) (last : Step V Y P S) (hl : ∀ s ∈ front ++ [last], Lawful s) (prm : Dict P) (hv : validateSteps (front ++ [last]) = .ok ())
    (fI fF : List (Name × Dict P)) (hr : routeParams (front ++ [last]) prm = .ok fI) (f : Name → Dict P) (hI : Known fI (front ++ [last]) f) (hF : Known fF (front ++ [last]) f) (X : V) (y : Option Y) :
    fitOne (asEst (front ++ [last])) (states (front ++ [last])) X y prm = (states (fitLoop fF (front ++ [last]) X y).1, (fitLoop fF (front ++ [last]) X y).2) := by
  have hfront : fitLoop fI front X y = fitLoop fF front X y :=
    fitLoop_params fI fF f front (fun s hs => hF s (List.mem_append_left _ hs)) (fun s hs => hI s (List.mem_append_left _ hs)) X y
  have hlast : ∀ e, last.kind = .est e → Dict.get fF last.name = .ok (f last.name) := fun e he => hF last (by simp) e he
  have hlaw : Lawful last := hl last (by simp)
  cases y with
  | none =>
    rw [fitOne_none]
    have h1 : fitTransformOne (asEst (front ++ [last])) (states (front ++ [last])) X none prm =
        (states (Pipeline.fitTransform (front ++ [last]) X none prm).1, (Pipeline.fitTransform (front ++ [last]) X none prm).2) := by
      unfold fitTransformOne asEst
      dsimp only
      rw [put_states]
    rw [h1]
    have h2 := fitted_known .fitTransform front last X none prm hv fI hr f hI
    unfold fitted at h2
    dsimp only at h2
    rw [hfront] at h2
    rw [fitLoop_append]
    have h3 := fitLoop_none fF front X
    rcases hq : Pipeline.fitTransform (front ++ [last]) X none prm with ⟨q1, q2⟩
    rw [hq] at h2
    rcases hz : fitLoop fF front X none with ⟨front', err | r⟩
    · rw [hz] at h2
      dsimp only at h2 ⊢
      injection h2 with h4 h5
      subst h4
      have : q2 = .error err := map_data_inj (Y := Y) _ _ h5
      rw [this]
      rfl
    · rw [hz] at h2 h3
      have h3' := h3 r rfl
      obtain ⟨rX, ry⟩ := r
      dsimp only at h3'
      subst h3'
      dsimp only at h2 ⊢
      injection h2 with h4 h5
      subst h4
      rw [fitLoop_single fF f last hlast]
      unfold finish at h5 ⊢
      cases hk : last.kind with
      | none =>
        rw [hk] at h5
        have : q2 = .ok rX := map_data_inj (Y := Y) _ _ h5
        rw [this]
        rfl
      | passthrough =>
        rw [hk] at h5
        have : q2 = .ok rX := map_data_inj (Y := Y) _ _ h5
        rw [this]
        rfl
      | est e =>
        rw [hk] at h5
        have : q2 = (fitTransformOne e last.state rX none (f last.name)).2 := map_data_inj (Y := Y) _ _ h5
        rw [this]
        dsimp only [lastCall]
        rw [fitOne_none]
  | some y =>
    have h1 : fitOne (asEst (front ++ [last])) (states (front ++ [last])) X (some y) prm =
        (states (Pipeline.fitTransformResample (front ++ [last]) X (some y) prm).1, do
          match ← (Pipeline.fitTransformResample (front ++ [last]) X (some y) prm).2 with
          | some r => .ok r
          | none => .error .typeError) := by
      unfold fitOne
      rw [if_pos (by simp [asEst])]
      unfold fitTransformResampleOne asEst
      dsimp only
      rw [put_states]
      rfl
    rw [h1]
    have h2 := fitted_known .fitTransformResample front last X (some y) prm hv fI hr f hI
    unfold fitted at h2
    dsimp only at h2
    rw [hfront] at h2
    rw [fitLoop_append]
    have h3 := fun front' X' y' => fitLoop_spec fF front X (some y) front' X' y' fun s hs => (hl s (List.mem_append_left _ hs)).front
    rcases hq : Pipeline.fitTransformResample (front ++ [last]) X (some y) prm with ⟨q1, q2⟩
    rw [hq] at h2
    rcases hz : fitLoop fF front X (some y) with ⟨front', err | r⟩
    · rw [hz] at h2
      dsimp only at h2 ⊢
      injection h2 with h4 h5
      subst h4
      have : q2 = .error err := map_pair_inj _ _ h5
      rw [this]
      rfl
    · rw [hz] at h2
      obtain ⟨rX, ry⟩ := r
      have h3' := (h3 front' rX ry hz).1 rfl
      dsimp only at h2 ⊢
      injection h2 with h4 h5
      subst h4
      rw [fitLoop_single fF f last hlast]
      unfold finish at h5 ⊢
      cases hk : last.kind with
      | none =>
        rw [hk] at h5
        have : q2 = .ok (some (rX, ry)) := map_pair_inj _ _ h5
        rw [this]
        rfl
      | passthrough =>
        rw [hk] at h5
        have : q2 = .ok (some (rX, ry)) := map_pair_inj _ _ h5
        rw [this]
        rfl
      | est e =>
        rw [hk] at h5
        rcases hlaw e hk with ⟨tr, ft, g1, g2, g3, g4, g5, g6⟩ | ⟨tr, rs, ft, trs, ftrs, g1, g2, g3, g4, g5, g6, g7, g8⟩
        · have h6 : fitOne e last.state rX ry (f last.name) = ((ft last.state rX ry (f last.name)).1, (fun X' => (X', ry)) <$> (ft last.state rX ry (f last.name)).2) := by
            unfold fitOne
            rw [if_neg (by simp [g4, g6])]
            unfold fitTransformOne
            rw [g2]
            dsimp only
            rcases ft last.state rX ry (f last.name) with ⟨a, b | b⟩ <;> rfl
          have h7 : lastCall .fitTransformResample e last.state rX ry (f last.name) =
              ((ft last.state rX ry (f last.name)).1, (fun Xt => Out.pair (some (Xt, ry))) <$> (ft last.state rX ry (f last.name)).2) := by
            dsimp only [lastCall]
            rw [g6, g2]
          dsimp only at h5 ⊢
          rw [h7] at h5 ⊢
          rw [h6]
          rcases hft : ft last.state rX ry (f last.name) with ⟨a, b | b⟩
          · rw [hft] at h5
            have : q2 = .error b := map_pair_inj _ _ h5
            rw [this]
            rfl
          · rw [hft] at h5
            have : q2 = .ok (some (b, ry)) := map_pair_inj _ _ h5
            rw [this]
            rfl
        · have h6 : fitOne e last.state rX ry (f last.name) = ftrs last.state rX ry (f last.name) := by
            unfold fitOne
            rw [if_pos (by simp [g2, h3'])]
            unfold fitTransformResampleOne
            rw [g7]
          have h7 : lastCall .fitTransformResample e last.state rX ry (f last.name) =
              ((ftrs last.state rX ry (f last.name)).1, (fun r => Out.pair (some r)) <$> (ftrs last.state rX ry (f last.name)).2) := by
            dsimp only [lastCall]
            rw [g7]
          dsimp only at h5 ⊢
          rw [h7] at h5 ⊢
          rw [h6]
          rcases hft : ftrs last.state rX ry (f last.name) with ⟨a, b | b⟩
          · rw [hft] at h5
            have : q2 = .error b := map_pair_inj _ _ h5
            rw [this]
            rfl
          · rw [hft] at h5
            have : q2 = .ok (some b) := map_pair_inj _ _ h5
            rw [this]
            rfl

theorem nest_last (m : Method) (front : List (Step V Y P S)) (last : Step V Y P S) (hlaw : Lawful last) (prm : Dict P) (hv : validateSteps (front ++ [last]) = .ok ())
    (fI : List (Name × Dict P)) (hr : routeParams (front ++ [last]) prm = .ok fI) (f : Name → Dict P) (hI : Known fI (front ++ [last]) f) (X : V) (y : Option Y) :
    lastCall m (asEst (front ++ [last])) (states (front ++ [last])) X y prm = (states (fitted m (front ++ [last]) X y prm).1, (fitted m (front ++ [last]) X y prm).2) := by
  cases m with
  | fit =>
    dsimp only [lastCall, asEst, fitted]
    rw [put_states]
  | fitTransform =>
    dsimp only [lastCall, fitTransformOne, asEst, fitted]
    rw [put_states]
  | fitTransformResample =>
    have h2 := fitted_known .fitTransformResample front last X y prm hv fI hr f hI
    unfold fitted at h2 ⊢
    dsimp only [lastCall, asEst] at h2 ⊢
    rw [put_states]
    rcases hq : Pipeline.fitTransformResample (front ++ [last]) X y prm with ⟨q1, q2⟩
    rw [hq] at h2
    have hne : q2 ≠ .ok none := by
      rintro rfl
      rcases hz : fitLoop fI front X y with ⟨front', err | r⟩
      · rw [hz] at h2
        dsimp only at h2
        injection h2 with h4 h5
        cases h5
      · rw [hz] at h2
        dsimp only at h2
        injection h2 with h4 h5
        unfold finish at h5
        cases hk : last.kind with
        | none =>
          rw [hk] at h5
          cases h5
        | passthrough =>
          rw [hk] at h5
          cases h5
        | est e =>
          rw [hk] at h5
          rcases hlaw e hk with ⟨tr, ft, g1, g2, g3, g4, g5, g6⟩ | ⟨tr, rs, ft, trs, ftrs, g1, g2, g3, g4, g5, g6, g7, g8⟩
          · dsimp only [lastCall] at h5
            rw [g6, g2] at h5
            dsimp only at h5
            rcases hft : ft last.state r.1 r.2 (f last.name) with ⟨a, b | b⟩ <;> rw [hft] at h5 <;> cases h5
          · dsimp only [lastCall] at h5
            rw [g7] at h5
            dsimp only at h5
            rcases hft : ftrs last.state r.1 r.2 (f last.name) with ⟨a, b | b⟩ <;> rw [hft] at h5 <;> cases h5
    cases q2 with
    | error e => rfl
    | ok o =>
      cases o with
      | none => exact absurd rfl hne
      | some r => rfl

/-! ### Fit parameters -/

/-- A name that contains no double underscore and does not end with an underscore can be split off. -/
theorem split2_prefix (n k : Name) (hn : split2 n = none) (hlast : n.getLast? ≠ some '_') : split2 (n ++ '_' :: '_' :: k) = some (n, k) := by
  rw [split2_eq_some_iff]
  refine ⟨rfl, ?_⟩
  intro a' b' h
  by_contra hlt
  rw [not_le] at hlt
  rw [List.append_eq_append_iff] at h
  rcases h with ⟨c, hc, h2⟩ | ⟨c, hc, h2⟩
  · have := congrArg List.length hc
    rw [List.length_append] at this
    omega
  · have h3 := congrArg List.length hc
    rw [List.length_append] at h3
    rcases c with _ | ⟨x, _ | ⟨y, c⟩⟩
    · simp at h3
      omega
    · rw [List.cons_append, List.nil_append] at h2
      injection h2 with h4 h5
      apply hlast
      rw [hc, ← h4, List.getLast?_concat]
    · rw [List.cons_append, List.cons_append] at h2
      injection h2 with h4 h5
      injection h5 with h5 h6
      exact (split2_spec n).2 hn a' c (by rw [hc, ← h4, ← h5])

theorem addressed_split (steps : List (Step V Y P S)) (k : Name) (h : AddressedTo steps k) : ∃ s ∈ steps, s.kind.isNone = false ∧ ∃ p, split2 k = some (s.name, p) := by
  obtain ⟨s, hs, hn, p, hp⟩ := h
  exact ⟨s, hs, hn, p, (split2_eq_some_iff _ _ _).2 hp⟩

theorem mem_live (steps : List (Step V Y P S)) (s : Step V Y P S) (hs : s ∈ steps) (hn : s.kind.isNone = false) : s.name ∈ liveNames steps := by
  unfold liveNames
  exact List.mem_map_of_mem (f := fun s : Step V Y P S => s.name) (List.mem_filter.2 ⟨hs, by simp [hn]⟩)

theorem routeParams_ok (steps : List (Step V Y P S)) (hv : validateSteps steps = .ok ()) (fp : Dict P) (hd : IsDict fp) (ha : ∀ kv ∈ fp, AddressedTo steps kv.1) :
    routeParams steps fp = .ok ((liveNames steps).map fun m => (m, Pipeline.own m fp)) := by
  unfold routeParams
  rw [Pipeline.emptyParams_eq _ (validate_nodup _ hv).1]
  have := (route_spec (liveNames steps) fp [] (by simpa using hd)).1 (by
    intro kv hkv
    obtain ⟨s, hs, hn, p, hp⟩ := addressed_split steps kv.1 (ha kv hkv)
    exact ⟨s.name, p, hp, mem_live steps s hs hn⟩)
  simpa [Pipeline.own] using this

theorem known_ok (steps : List (Step V Y P S)) (fp : Dict P) : Known ((liveNames steps).map fun m => (m, Pipeline.own m fp)) steps fun a => Pipeline.own a fp := by
  intro s hs e hk
  rw [get_map, if_pos (mem_live steps s hs (by rw [hk]; rfl))]

theorem own_cons (a : Name) (kv : Name × P) (fp : Dict P) : Pipeline.own a (kv :: fp) = (match split2 kv.1 with
    | some (b, p) => if b = a then [(p, kv.2)] else []
    | none => []) ++ Pipeline.own a fp := by
  unfold Pipeline.own
  rw [List.filterMap_cons]
  cases split2 kv.1 with
  | none => rfl
  | some bp =>
    dsimp only
    by_cases h : bp.1 = a
    · rw [if_pos h, if_pos h]
      rfl
    · rw [if_neg h, if_neg h]
      rfl

section

variable (n : Name) (pre inner post : List (Step V Y P S)) (hn : split2 n = none) (hlast : n.getLast? ≠ some '_')
  (hpp : ∀ s ∈ pre ++ post, s.name ≠ n) (hdisj : ∀ s ∈ pre ++ post, ∀ t ∈ inner, s.name ≠ t.name)
include hn hlast hpp hdisj

theorem own_outside (D D' : Dict P) (h : List.Forall₂ (Readdressed n pre inner post) D D') (s : Step V Y P S) (hs : s ∈ pre ++ post) :
    Pipeline.own s.name D' = Pipeline.own s.name D := by
  induction h with
  | nil => rfl
  | @cons kv kv' t t' hkv _ ih =>
    rw [own_cons, own_cons, ih]
    congr 1
    obtain ⟨hv, ⟨ha, hk⟩ | ⟨ha, hk⟩⟩ := hkv
    · obtain ⟨i, hi, _, p, hp⟩ := addressed_split inner kv.1 ha
      rw [hk, split2_prefix n kv.1 hn hlast, hp]
      dsimp only
      rw [if_neg (fun h => hpp s hs h.symm), if_neg (fun h => hdisj s hs i hi h.symm)]
    · rw [hk, hv]

theorem own_inside (D D' : Dict P) (h : List.Forall₂ (Readdressed n pre inner post) D D') (i : Step V Y P S) (hi : i ∈ inner) :
    Pipeline.own i.name (Pipeline.own n D') = Pipeline.own i.name D := by
  induction h with
  | nil => rfl
  | @cons kv kv' t t' hkv _ ih =>
    rw [own_cons n, own_cons i.name, ← ih]
    obtain ⟨hv, ⟨ha, hk⟩ | ⟨ha, hk⟩⟩ := hkv
    · rw [hk, split2_prefix n kv.1 hn hlast]
      dsimp only
      rw [if_pos rfl, hv, List.cons_append, List.nil_append, own_cons]
    · obtain ⟨s, hs, _, p, hp⟩ := addressed_split (pre ++ post) kv.1 ha
      rw [hk, hp]
      dsimp only
      rw [if_neg (hpp s hs), if_neg (hdisj s hs i hi), List.nil_append, List.nil_append]

theorem own_addressed (D D' : Dict P) (h : List.Forall₂ (Readdressed n pre inner post) D D') : ∀ kv ∈ Pipeline.own n D', AddressedTo inner kv.1 := by
  induction h with
  | nil => exact fun kv hkv => by cases hkv
  | @cons kv kv' t t' hkv _ ih =>
    rw [own_cons]
    intro q hq
    rcases List.mem_append.1 hq with hq | hq
    · obtain ⟨hv, ⟨ha, hk⟩ | ⟨ha, hk⟩⟩ := hkv
      · rw [hk, split2_prefix n kv.1 hn hlast] at hq
        dsimp only at hq
        rw [if_pos rfl, List.mem_singleton] at hq
        rw [hq]
        exact ha
      · obtain ⟨s, hs, _, p, hp⟩ := addressed_split (pre ++ post) kv.1 ha
        rw [hk, hp] at hq
        dsimp only at hq
        rw [if_neg (hpp s hs)] at hq
        cases hq
    · exact ih q hq

end

theorem isNone_liftStep (s : Step V Y P S) : (liftStep s).kind.isNone = s.kind.isNone := by
  unfold liftStep
  cases s.kind <;> rfl

theorem name_liftStep (s : Step V Y P S) : (liftStep s).name = s.name := rfl

theorem addressed_outer (n : Name) (pre inner post : List (Step V Y P S)) (hn : split2 n = none) (hlast : n.getLast? ≠ some '_') (D D' : Dict P)
    (h : List.Forall₂ (Readdressed n pre inner post) D D') : (∀ kv ∈ D', AddressedTo (nested n pre inner post) kv.1) ∧ ∀ kv ∈ D, AddressedTo (pre ++ inner ++ post) kv.1 := by
  induction h with
  | nil => exact ⟨fun kv hkv => (by cases hkv), fun kv hkv => (by cases hkv)⟩
  | @cons kv kv' t t' hkv _ ih =>
    obtain ⟨hv, ⟨ha, hk⟩ | ⟨ha, hk⟩⟩ := hkv
    · constructor
      · intro q hq
        rcases List.mem_cons.1 hq with rfl | hq
        · refine ⟨nest n inner, by simp [nested], rfl, kv.1, ?_⟩
          rw [hk]
          exact (split2_eq_some_iff _ _ _).1 (split2_prefix n kv.1 hn hlast)
        · exact ih.1 q hq
      · intro q hq
        rcases List.mem_cons.1 hq with rfl | hq
        · obtain ⟨s, hs, h1, p, hp⟩ := ha
          exact ⟨s, by simp [hs], h1, p, hp⟩
        · exact ih.2 q hq
    · obtain ⟨s, hs, h1, p, hp⟩ := ha
      constructor
      · intro q hq
        rcases List.mem_cons.1 hq with rfl | hq
        · refine ⟨liftStep s, ?_, by rw [isNone_liftStep]; exact h1, p, ?_⟩
          · unfold nested
            rcases List.mem_append.1 hs with hs | hs
            · exact List.mem_append_left _ (List.mem_map_of_mem hs)
            · exact List.mem_append_right _ (List.mem_cons_of_mem _ (List.mem_map_of_mem hs))
          · rw [name_liftStep, hk]
            exact hp
        · exact ih.1 q hq
      · intro q hq
        rcases List.mem_cons.1 hq with rfl | hq
        · refine ⟨s, ?_, h1, p, hp⟩
          rcases List.mem_append.1 hs with hs | hs
          · exact List.mem_append_left _ (List.mem_append_left _ hs)
          · exact List.mem_append_right _ hs
        · exact ih.2 q hq

/-- A part of a valid list of steps is valid. -/
theorem validate_infix (a b c : List (Step V Y P S)) (hb : b ≠ []) (h : validateSteps (a ++ b ++ c) = .ok ()) : validateSteps b = .ok () := by
  unfold validateSteps at h ⊢
  dsimp only at h ⊢
  split_ifs at h with h1 h2 h3 h4 h5
  rw [if_neg (by simpa using hb), if_neg, if_neg, if_neg, if_neg]
  · intro hx
    apply h5
    rw [List.any_eq_true] at hx ⊢
    obtain ⟨s, hs, hq⟩ := hx
    refine ⟨s, ?_, hq⟩
    have hsub : b.dropLast ⊆ (a ++ b ++ c).dropLast := by
      intro x hx
      by_cases hc : c = []
      · subst hc
        rw [List.append_nil, List.dropLast_append_of_ne_nil hb]
        exact List.mem_append_right _ hx
      · rw [List.dropLast_append_of_ne_nil hc]
        exact List.mem_append_left _ (List.mem_append_right _ (List.dropLast_subset _ hx))
    exact hsub hs
  · intro hx
    apply h4
    rw [List.any_eq_true] at hx ⊢
    obtain ⟨s, hs, hq⟩ := hx
    refine ⟨s, ?_, hq⟩
    rw [List.map_append, List.map_append]
    exact List.mem_append_left _ (List.mem_append_right _ hs)
  · intro hx
    apply h3
    rw [List.any_eq_true] at hx ⊢
    obtain ⟨s, hs, hq⟩ := hx
    refine ⟨s, ?_, hq⟩
    rw [List.map_append, List.map_append]
    exact List.mem_append_left _ (List.mem_append_right _ hs)
  · rw [not_not]
    rw [List.map_append, List.map_append] at h2
    exact (List.nodup_append.1 (List.nodup_append.1 h2).1).2.1

/-! ### Nested and flat pipelines -/

theorem states_liftStep (steps : List (Step V Y P S)) : allStates (steps.map liftStep) = states steps := by
  unfold allStates states
  induction steps with
  | nil => rfl
  | cons s t ih =>
    rw [List.map_cons, List.map_cons, List.flatten_cons, ih]
    rfl

theorem allStates_append (a b : List (Step V Y P (List S))) : allStates (a ++ b) = allStates a ++ allStates b := by
  unfold allStates
  rw [List.map_append, List.flatten_append]

theorem allStates_cons (a : Step V Y P (List S)) (b : List (Step V Y P (List S))) : allStates (a :: b) = a.state ++ allStates b := rfl

/-- The states and the result of a call. -/
def flatView {α : Type} (q : List (Step V Y P S) × PyM α) : List S × PyM α := (states q.1, q.2)

/-- The states of all estimators and the result of a call. -/
def nestedView {α : Type} (q : List (Step V Y P (List S)) × PyM α) : List S × PyM α := (allStates q.1, q.2)

theorem finish_lift (m : Method) (f : Name → Dict P) (s : Step V Y P S) (X : V) (y : Option Y) :
    finish m f (liftStep s) X y = (liftStep (finish m f s X y).1, (finish m f s X y).2) := by
  unfold finish
  by_cases hk : ∃ e, s.kind = .est e
  · obtain ⟨e, hk⟩ := hk
    rw [liftStep_est s e hk]
    dsimp only
    rw [hk]
    dsimp only
    rw [lastCall_lift]
    rfl
  · cases h : s.kind with
    | none => simp [liftStep, h]
    | passthrough => simp [liftStep, h]
    | est e => exact absurd ⟨e, h⟩ hk

theorem nested_eq_flat (m : Method) (n : Name) (pre inner post : List (Step V Y P S)) (X : V) (y : Option Y) (D D' : Dict P)
    (hvn : validateSteps (nested n pre inner post) = .ok ()) (hvf : validateSteps (pre ++ inner ++ post) = .ok ()) (hi : inner ≠ []) (hl : ∀ s ∈ inner, Lawful s)
    (hlast : n.getLast? ≠ some '_') (hD : IsDict D) (hD' : IsDict D') (h : List.Forall₂ (Readdressed n pre inner post) D D') :
    nestedView (fitted m (nested n pre inner post) X y D') = flatView (fitted m (pre ++ inner ++ post) X y D) := by
  have hvi : validateSteps inner = .ok () := validate_infix pre inner post hi hvf
  have hnd := (validate_nodup _ hvn).1
  have hnf := (validate_nodup _ hvf).1
  have hn : split2 n = none := (validate_nodup _ hvn).2 (nest n inner) (by simp [nested])
  have hpp : ∀ s ∈ pre ++ post, s.name ≠ n := by
    intro s hs
    unfold nested at hnd
    rw [List.map_append, List.map_cons, List.map_map, List.map_map] at hnd
    rw [List.nodup_append, List.nodup_cons] at hnd
    obtain ⟨_, ⟨h1, _⟩, h2⟩ := hnd
    intro he
    rcases List.mem_append.1 hs with hs | hs
    · exact h2 _ (List.mem_map_of_mem hs) _ List.mem_cons_self he
    · exact h1 (List.mem_map.2 ⟨s, hs, he⟩)
  have hdisj : ∀ s ∈ pre ++ post, ∀ t ∈ inner, s.name ≠ t.name := by
    intro s hs t ht he
    rw [List.map_append, List.map_append, List.nodup_append, List.nodup_append] at hnf
    obtain ⟨⟨_, _, h1⟩, _, h2⟩ := hnf
    rcases List.mem_append.1 hs with hs | hs
    · exact h1 _ (List.mem_map_of_mem hs) _ (List.mem_map_of_mem ht) he
    · exact h2 _ (List.mem_append_right _ (List.mem_map_of_mem ht)) _ (List.mem_map_of_mem hs) he.symm
  obtain ⟨haN, haF⟩ := addressed_outer n pre inner post hn hlast D D' h
  have hrN := routeParams_ok _ hvn D' hD' haN
  have hrF := routeParams_ok _ hvf D hD haF
  have hrI := routeParams_ok inner hvi (Pipeline.own n D') (own_isDict n D' hD') (own_addressed n pre inner post hn hlast hpp hdisj D D' h)
  have kN := known_ok (nested n pre inner post) D'
  have kF := known_ok (pre ++ inner ++ post) D
  have kI := known_ok inner (Pipeline.own n D')
  generalize (liveNames (nested n pre inner post)).map (fun m => (m, Pipeline.own m D')) = fN at hrN kN
  generalize (liveNames (pre ++ inner ++ post)).map (fun m => (m, Pipeline.own m D)) = fF at hrF kF
  generalize (liveNames inner).map (fun m => (m, Pipeline.own m (Pipeline.own n D'))) = fI at hrI kI
  have kI' : Known fI inner fun a => Pipeline.own a D := by
    intro s hs e he
    rw [kI s hs e he]
    dsimp only
    rw [own_inside n pre inner post hn hlast hpp hdisj D D' h s hs]
  have kIF : Known fF inner fun a => Pipeline.own a D := fun s hs => kF s (by simp [hs])
  have kpreF : Known fF pre fun a => Pipeline.own a D := fun s hs => kF s (by simp [hs])
  have kN' : ∀ s ∈ pre ++ post, ∀ e, s.kind = .est e → Dict.get fN s.name = .ok (Pipeline.own s.name D) := by
    intro s hs e he
    have := kN (liftStep s) (by
      unfold nested
      rcases List.mem_append.1 hs with hs | hs
      · exact List.mem_append_left _ (List.mem_map_of_mem hs)
      · exact List.mem_append_right _ (List.mem_cons_of_mem _ (List.mem_map_of_mem hs))) (lift e) (by rw [liftStep_est s e he])
    rw [name_liftStep] at this
    rw [this]
    dsimp only
    rw [own_outside n pre inner post hn hlast hpp hdisj D D' h s hs]
  have kNn : Dict.get fN n = .ok (Pipeline.own n D') := kN (nest n inner) (by simp [nested]) (asEst inner) rfl
  have hpre := fitLoop_lift fN fF (fun a => Pipeline.own a D) pre kpreF (fun s hs => kN' s (by simp [hs]))
  rcases List.eq_nil_or_concat inner with rfl | ⟨front, last, rfl⟩
  · exact absurd rfl hi
  rw [List.concat_eq_append] at *
  rcases List.eq_nil_or_concat post with rfl | ⟨post, l, rfl⟩
  · have e1 : pre ++ (front ++ [last]) ++ [] = (pre ++ front) ++ [last] := by simp
    have e2 : nested n pre (front ++ [last]) [] = pre.map liftStep ++ [nest n (front ++ [last])] := rfl
    rw [e1] at hvf hrF kF ⊢
    rw [e2] at hvn hrN kN ⊢
    rw [fitted_known m _ _ X y D hvf fF hrF _ kF, fitted_known m _ _ X y D' hvn fN hrN _ kN, hpre, fitLoop_append]
    rcases fitLoop fF pre X y with ⟨pre', err | r⟩
    · simp only [nestedView, flatView, allStates_append, states_append, states_liftStep, List.append_assoc]
      simp [allStates, nest, states_append]
    · dsimp only
      have h1 : finish m (fun a => Pipeline.own a D') (nest n (front ++ [last])) r.1 r.2 =
          (⟨n, .est (asEst (front ++ [last])), states (fitted m (front ++ [last]) r.1 r.2 (Pipeline.own n D')).1⟩, (fitted m (front ++ [last]) r.1 r.2 (Pipeline.own n D')).2) := by
        unfold finish nest
        dsimp only
        rw [nest_last m front last (hl last (by simp)) (Pipeline.own n D') hvi fI hrI _ kI' r.1 r.2]
      rw [h1, fitted_known m front last r.1 r.2 _ hvi fI hrI _ kI', fitLoop_params fI fF (fun a => Pipeline.own a D) front (fun s hs => kIF s (by simp [hs])) (fun s hs => kI' s (by simp [hs]))]
      rcases fitLoop fF front r.1 r.2 with ⟨front', err | z⟩
      · simp only [nestedView, flatView, allStates_append, states_append, states_liftStep, List.append_assoc]
        simp [allStates]
      · simp only [nestedView, flatView, allStates_append, states_append, states_liftStep, List.append_assoc]
        simp [allStates]
  · rw [List.concat_eq_append] at *
    have e1 : pre ++ (front ++ [last]) ++ (post ++ [l]) = (pre ++ ((front ++ [last]) ++ post)) ++ [l] := by simp
    have e2 : nested n pre (front ++ [last]) (post ++ [l]) = (pre.map liftStep ++ nest n (front ++ [last]) :: post.map liftStep) ++ [liftStep l] := by simp [nested]
    rw [e1] at hvf hrF kF ⊢
    rw [e2] at hvn hrN kN ⊢
    rw [fitted_known m _ _ X y D hvf fF hrF _ kF, fitted_known m _ _ X y D' hvn fN hrN _ kN, fitLoop_append, hpre, fitLoop_append]
    rcases fitLoop fF pre X y with ⟨pre', err | r⟩
    · simp only [nestedView, flatView, allStates_append, states_append, states_liftStep, List.append_assoc, allStates_cons, List.cons_append]
      simp [allStates, nest, states_append, liftStep, states]
    · dsimp only
      rw [fitLoop_cons_est fN (nest n (front ++ [last])) _ (asEst (front ++ [last])) rfl r.1 r.2 _ kNn]
      have hst : (nest n (front ++ [last])).state = states (front ++ [last]) := rfl
      rw [hst, nest_middle front last hl (Pipeline.own n D') hvi fI fF hrI _ kI' kIF r.1 r.2]
      rw [fitLoop_append fF (front ++ [last]) post]
      rcases fitLoop fF (front ++ [last]) r.1 r.2 with ⟨inner', err | z⟩
      · simp only [nestedView, flatView, allStates_append, states_append, states_liftStep, List.append_assoc, allStates_cons, List.cons_append]
        simp [allStates, liftStep, states]
      · dsimp only
        rw [fitLoop_lift fN fF (fun a => Pipeline.own a D) post (fun s hs => kF s (by simp [hs])) (fun s hs => kN' s (by simp [hs]))]
        rcases fitLoop fF post z.1 z.2 with ⟨post', err | w⟩
        · simp only [nestedView, flatView, allStates_append, states_append, states_liftStep, List.append_assoc, allStates_cons, List.cons_append]
          simp [allStates, liftStep, states]
        · dsimp only
          have h2 : finish m (fun a => Pipeline.own a D') (liftStep l) w.1 w.2 = finish m (fun a => Pipeline.own a D) (liftStep l) w.1 w.2 := by
            unfold finish
            rw [name_liftStep]
            dsimp only
            rw [own_outside n pre (front ++ [last]) (post ++ [l]) hn hlast hpp hdisj D D' h l (by simp)]
          rw [h2, finish_lift]
          simp only [nestedView, flatView, allStates_append, states_append, states_liftStep, List.append_assoc, allStates_cons, List.cons_append]
          simp [allStates, liftStep, states]

/-! ### Methods that do not fit -/

theorem iter_append (a b : List (Step V Y P S)) : iter (a ++ b) = iter a ++ iter b := by
  unfold iter
  rw [List.filterMap_append]

theorem iter_lift (steps : List (Step V Y P S)) : iter (steps.map liftStep) = (iter steps).map fun es => (lift es.1, [es.2]) := by
  induction steps with
  | nil => rfl
  | cons s t ih =>
    unfold iter at ih ⊢
    rw [List.map_cons, List.filterMap_cons, List.filterMap_cons]
    cases hk : s.kind with
    | none =>
      rw [ih]
      simp [liftStep, hk]
    | passthrough =>
      rw [ih]
      simp [liftStep, hk]
    | est e =>
      rw [ih]
      simp [liftStep, hk]

theorem iter_nested (n : Name) (pre inner post : List (Step V Y P S)) :
    iter (nested n pre inner post) = ((iter pre).map fun es => (lift es.1, [es.2])) ++ (asEst inner, states inner) :: (iter post).map fun es => (lift es.1, [es.2]) := by
  unfold nested
  rw [iter_append, iter_lift, ← iter_lift post]
  rfl

theorem transform_lift (e : Est V Y P S) (s : S) (X : V) : (do let f ← attr (lift e).transform; f [s] X : PyM V) = (do let f ← attr e.transform; f s X) := by
  unfold lift
  cases e.transform <;> rfl

theorem transformResampleOne_lift (e : Est V Y P S) (s : S) (Xy : V × Option Y) : transformResampleOne Xy (lift e, [s]) = transformResampleOne Xy (e, s) := by
  unfold transformResampleOne lift
  dsimp only
  cases e.transformResample with
  | some f => rfl
  | none => cases e.transform <;> rfl

theorem foldlM_map_lift {A : Type} (l : List (Est V Y P S × S)) (g : A → Est V Y P (List S) × List S → PyM A) (g' : A → Est V Y P S × S → PyM A)
    (h : ∀ a e s, g a (lift e, [s]) = g' a (e, s)) (a : A) : (l.map fun es => (lift es.1, [es.2])).foldlM g a = l.foldlM g' a := by
  rw [List.foldlM_map]
  congr 1
  funext a es
  exact h a es.1 es.2

theorem finalEst_lift (steps : List (Step V Y P S)) : finalEst (steps.map liftStep) = (finalEst steps).map lift := by
  unfold finalEst
  rw [List.getLast?_map]
  cases steps.getLast? with
  | none => rfl
  | some s =>
    dsimp only [Option.map_some]
    unfold liftStep
    cases s.kind <;> rfl

theorem finalEst_append (a b : List (Step V Y P S)) (hb : b ≠ []) : finalEst (a ++ b) = finalEst b := by
  unfold finalEst
  rw [List.getLast?_append_of_ne_nil _ hb]

theorem finalEst_nested (n : Name) (pre inner post : List (Step V Y P S)) :
    finalEst (nested n pre inner post) = if post = [] then some (asEst inner) else (finalEst post).map lift := by
  unfold nested
  by_cases hp : post = []
  · subst hp
    rw [if_pos rfl]
    unfold finalEst
    rw [List.map_nil, List.getLast?_concat]
    rfl
  · rw [if_neg hp, ← finalEst_lift, List.append_cons, finalEst_append _ _ (by simpa using hp)]

theorem finalEst_flat (pre inner post : List (Step V Y P S)) (hi : inner ≠ []) : finalEst (pre ++ inner ++ post) = if post = [] then finalEst inner else finalEst post := by
  by_cases hp : post = []
  · subst hp
    rw [if_pos rfl, List.append_nil, finalEst_append _ _ hi]
  · rw [if_neg hp, finalEst_append _ _ hp]

theorem has_nested (n : Name) (pre inner post : List (Step V Y P S)) (hi : inner ≠ []) :
    hasTransform (nested n pre inner post) = hasTransform (pre ++ inner ++ post) ∧ hasResample (nested n pre inner post) = hasResample (pre ++ inner ++ post) ∧
    hasTransformResample (nested n pre inner post) = hasTransformResample (pre ++ inner ++ post) ∧ hasInverse (nested n pre inner post) = hasInverse (pre ++ inner ++ post) ∧
    hasScore (nested n pre inner post) = hasScore (pre ++ inner ++ post) := by
  refine ⟨?_, ?_, ?_, ?_, ?_⟩
  · unfold hasTransform
    rw [finalEst_nested, finalEst_flat _ _ _ hi]
    split_ifs
    · dsimp only [asEst]
      unfold hasTransform
      cases finalEst inner with
      | none => rfl
      | some e => cases h : e.transform <;> simp [h]
    · cases finalEst post with
      | none => rfl
      | some e => simp [lift]
  · unfold hasResample
    rw [finalEst_nested, finalEst_flat _ _ _ hi]
    split_ifs
    · dsimp only [asEst]
      unfold hasResample
      cases finalEst inner with
      | none => rfl
      | some e => cases h : e.resample <;> simp [h]
    · cases finalEst post with
      | none => rfl
      | some e => simp [lift]
  · unfold hasTransformResample
    rw [finalEst_nested, finalEst_flat _ _ _ hi]
    split_ifs
    · dsimp only [asEst]
      unfold hasTransform hasTransformResample
      cases finalEst inner with
      | none => rfl
      | some e => cases h : e.transform <;> cases h' : e.transformResample <;> simp [h, h']
    · cases finalEst post with
      | none => rfl
      | some e => simp [lift]
  · unfold hasInverse
    rw [iter_nested, iter_append, iter_append]
    have hl : ∀ l : List (Est V Y P S × S), ((l.map fun es => (lift es.1, [es.2])).all fun es => es.1.inverse.isSome) = l.all fun es => es.1.inverse.isSome := by
      intro l
      rw [List.all_map]
      congr 1
      funext es
      simp [lift]
    rw [List.all_append, List.all_cons, hl, hl, List.all_append, List.all_append, Bool.and_assoc]
    congr 2
    dsimp only [asEst]
    unfold hasInverse
    cases (iter inner).all fun es => es.1.inverse.isSome <;> rfl
  · unfold hasScore
    rw [finalEst_nested, finalEst_flat _ _ _ hi]
    split_ifs
    · dsimp only [asEst]
      unfold hasScore
      cases finalEst inner with
      | none => rfl
      | some e => cases h : e.score <;> simp [h]
    · cases finalEst post with
      | none => rfl
      | some e => simp [lift]

theorem allTransform_final (steps : List (Step V Y P S)) (h : AllTransform steps) : hasTransform steps = true ∧ hasTransformResample steps = true := by
  unfold hasTransform hasTransformResample finalEst
  cases hl : steps.getLast? with
  | none => exact ⟨rfl, rfl⟩
  | some s =>
    dsimp only
    cases hk : s.kind with
    | none => exact ⟨rfl, rfl⟩
    | passthrough => exact ⟨rfl, rfl⟩
    | est e =>
      have := h s (List.mem_of_getLast? hl) e hk
      dsimp only
      refine ⟨this, ?_⟩
      split_ifs
      · rfl
      · exact this

theorem transform_nested (n : Name) (pre inner post : List (Step V Y P S)) (h : AllTransform inner) (X : V) : transform (nested n pre inner post) X = transform (pre ++ inner ++ post) X := by
  unfold transform
  rw [iter_nested, iter_append, iter_append, List.foldlM_append, List.append_assoc, List.foldlM_append,
    foldlM_map_lift (iter pre) _ (fun X es => do (← attr es.1.transform) es.2 X) (fun X e s => transform_lift e s X)]
  congr 1
  funext X
  rw [List.foldlM_cons, List.foldlM_append]
  have h1 : (do (← attr (asEst inner).transform) (states inner) X : PyM V) = transform inner X := by
    unfold asEst
    dsimp only
    rw [if_pos (allTransform_final inner h).1]
    show transform (put inner (states inner)) X = _
    rw [put_states]
  dsimp only
  rw [h1]
  unfold transform
  congr 1
  funext X
  exact foldlM_map_lift (iter post) _ (fun X es => do (← attr es.1.transform) es.2 X) (fun X e s => transform_lift e s X) X

theorem transformResampleOne_nest (inner : List (Step V Y P S)) (h : AllTransform inner) (Xy : V × Option Y) :
    transformResampleOne Xy (asEst inner, states inner) = (iter inner).foldlM transformResampleOne Xy := by
  unfold transformResampleOne
  dsimp only [asEst]
  rw [if_pos (allTransform_final inner h).2]
  dsimp only
  rw [put_states]
  rfl

theorem transformResample_nested (n : Name) (pre inner post : List (Step V Y P S)) (h : AllTransform inner) (Xy : V × Option Y) :
    (iter (nested n pre inner post)).foldlM transformResampleOne Xy = (iter (pre ++ inner ++ post)).foldlM transformResampleOne Xy := by
  rw [iter_nested, iter_append, iter_append, List.foldlM_append, List.append_assoc, List.foldlM_append,
    foldlM_map_lift (iter pre) _ transformResampleOne (fun X e s => transformResampleOne_lift e s X)]
  congr 1
  funext X
  rw [List.foldlM_cons, List.foldlM_append, transformResampleOne_nest inner h]
  congr 1
  funext X
  exact foldlM_map_lift (iter post) _ transformResampleOne (fun X e s => transformResampleOne_lift e s X) X

theorem score_nested (n : Name) (pre inner post : List (Step V Y P S)) (hi : inner ≠ []) (h : post ≠ [] → AllTransform inner) (hs : hasScore (pre ++ inner ++ post) = true) (X : V) (y : Option Y) :
    score (nested n pre inner post) X y = score (pre ++ inner ++ post) X y := by
  unfold score
  rcases List.eq_nil_or_concat post with rfl | ⟨post, l, rfl⟩
  · have e2 : nested n pre inner [] = pre.map liftStep ++ [nest n inner] := rfl
    rw [e2, List.dropLast_concat, List.getLast?_concat, List.append_nil, List.dropLast_append_of_ne_nil hi, List.getLast?_append_of_ne_nil _ hi, iter_lift, iter_append,
      foldlM_map_lift (iter pre) _ transformResampleOne (fun X e s => transformResampleOne_lift e s X), List.foldlM_append, bind_assoc]
    congr 1
    funext Xy
    have h1 : iter (some (nest n inner)).toList = [(asEst inner, states inner)] := rfl
    rw [h1]
    dsimp only [asEst]
    have h2 : hasScore inner = true := by
      unfold hasScore at hs ⊢
      rw [finalEst_flat _ _ _ hi, if_pos rfl] at hs
      exact hs
    rw [if_pos h2]
    show score (put inner (states inner)) Xy.1 Xy.2 = _
    rw [put_states]
    rfl
  · rw [List.concat_eq_append] at *
    have e1 : pre ++ inner ++ (post ++ [l]) = (pre ++ inner ++ post) ++ [l] := by simp
    have e2 : nested n pre inner (post ++ [l]) = nested n pre inner post ++ [liftStep l] := by simp [nested]
    rw [e1, e2, List.dropLast_concat, List.getLast?_concat, List.dropLast_concat, List.getLast?_concat, transformResample_nested n pre inner post (h (by simp))]
    congr 1
    funext Xy
    cases hk : l.kind with
    | none => simp [iter, hk, liftStep]
    | passthrough => simp [iter, hk, liftStep]
    | est e =>
      simp only [iter, hk, liftStep, Option.toList, List.filterMap_cons, List.filterMap_nil]
      unfold lift
      cases e.score <;> rfl

/-- One step of `inverse_transform`. -/
def invOne (y : Option Y) (Xt : V) (es : Est V Y P S × S) : PyM V := do
  match ← attr es.1.inverse with
  | .one _ => .error .typeError
  | .two f => f es.2 Xt y

theorem inverseTransform_eq (steps : List (Step V Y P S)) (X : V) (y : Option Y) : inverseTransform steps X y = (iter steps).reverse.foldlM (invOne y) X := rfl

theorem inverse_nested (n : Name) (pre inner post : List (Step V Y P S)) (h : hasInverse (pre ++ inner ++ post) = true) (X : V) (y : Option Y) :
    inverseTransform (nested n pre inner post) X y = inverseTransform (pre ++ inner ++ post) X y := by
  have hinner : hasInverse inner = true := by
    unfold hasInverse at h ⊢
    rw [iter_append, iter_append, List.all_append, List.all_append, Bool.and_eq_true, Bool.and_eq_true] at h
    exact h.1.2
  have hlift : ∀ (l : List (Est V Y P S × S)) (X : V), (l.map fun es => (lift es.1, [es.2])).foldlM (invOne y) X = l.foldlM (invOne y) X := by
    intro l X
    refine foldlM_map_lift l _ _ ?_ X
    intro X e s
    unfold lift invOne
    dsimp only
    cases e.inverse with
    | none => rfl
    | some i => cases i <;> rfl
  rw [inverseTransform_eq, inverseTransform_eq, iter_nested, iter_append, iter_append, List.reverse_append, List.reverse_cons, List.append_assoc, ← List.map_reverse, ← List.map_reverse, List.reverse_append,
    List.reverse_append, List.foldlM_append, List.foldlM_append, hlift]
  congr 1
  funext X
  rw [List.singleton_append, List.foldlM_cons, List.foldlM_append]
  have h1 : invOne y X (asEst inner, states inner) = (iter inner).reverse.foldlM (invOne y) X := by
    rw [← inverseTransform_eq]
    unfold invOne asEst
    dsimp only
    rw [if_pos hinner]
    show inverseTransform (put inner (states inner)) X y = _
    rw [put_states]
  rw [h1]
  congr 1
  funext X
  exact hlift _ X

end Gtda.Props.PipelineNesting

namespace Gtda.Props

open Py Gtda.Pipeline Gtda.PipelineNesting Gtda.Spec.PipelineNesting Gtda.PipelineCache Gtda.Spec.PipelineCache PipelineNesting

variable {V Y P S : Type}

/-- **C118.** Take a pipeline with the steps `pre`, a pipeline `n` with the steps `inner`, and the steps `post`, and the flat pipeline with the steps `pre`, `inner`, `post`. Fit both on the same data and
targets, the fit parameters of the inner steps with the additional prefix `n__`. Then `fit`, `fit_transform` and `fit_transform_resample` return, or raise, the same, and all estimators end in the same states
(also those fitted before an exception). -/
theorem C118_fit (m : Method) (n : Name) (pre inner post : List (Step V Y P S)) (X : V) (y : Option Y) (D D' : Dict P)
    (hvn : ValidSteps (nested n pre inner post)) (hvf : ValidSteps (pre ++ inner ++ post)) (hi : inner ≠ []) (hl : ∀ s ∈ inner, Lawful s)
    (hlast : n.getLast? ≠ some '_') (hD : IsDict D) (hD' : IsDict D') (h : List.Forall₂ (Readdressed n pre inner post) D D') :
    (fitted m (nested n pre inner post) X y D').2 = (fitted m (pre ++ inner ++ post) X y D).2 ∧
    allStates (fitted m (nested n pre inner post) X y D').1 = (fitted m (pre ++ inner ++ post) X y D).1.map fun s => s.state := by
  have := nested_eq_flat m n pre inner post X y D D' ((validate_iff _).2 hvn) ((validate_iff _).2 hvf) hi hl hlast hD hD' h
  unfold nestedView flatView at this
  injection this with h1 h2
  exact ⟨h2, h1⟩

/-- **C118.** The two pipelines have the same methods. -/
theorem C118_available (n : Name) (pre inner post : List (Step V Y P S)) (hi : inner ≠ []) :
    hasTransform (nested n pre inner post) = hasTransform (pre ++ inner ++ post) ∧ hasResample (nested n pre inner post) = hasResample (pre ++ inner ++ post) ∧
    hasTransformResample (nested n pre inner post) = hasTransformResample (pre ++ inner ++ post) ∧ hasInverse (nested n pre inner post) = hasInverse (pre ++ inner ++ post) ∧
    hasScore (nested n pre inner post) = hasScore (pre ++ inner ++ post) := has_nested n pre inner post hi

/-- **C118.** `transform` and `transform_resample` of the two pipelines return, or raise, the same. -/
theorem C118_transform (n : Name) (pre inner post : List (Step V Y P S)) (hi : inner ≠ []) (h : AllTransform inner) (X : V) (y : Option Y) :
    callTransform (nested n pre inner post) X = callTransform (pre ++ inner ++ post) X ∧
    callTransformResample (nested n pre inner post) X y = callTransformResample (pre ++ inner ++ post) X y := by
  unfold callTransform callTransformResample
  obtain ⟨h1, _, h3, _, _⟩ := has_nested n pre inner post hi
  rw [h1, h3, transform_nested n pre inner post h]
  refine ⟨rfl, ?_⟩
  unfold transformResample
  rw [transformResample_nested n pre inner post h]

/-- **C118.** `inverse_transform` of the two pipelines returns, or raises, the same, whatever the steps are. -/
theorem C118_inverse (n : Name) (pre inner post : List (Step V Y P S)) (hi : inner ≠ []) (X : V) (y : Option Y) :
    callInverse (nested n pre inner post) X y = callInverse (pre ++ inner ++ post) X y := by
  unfold callInverse
  rw [(has_nested n pre inner post hi).2.2.2.1]
  split_ifs with h
  · exact inverse_nested n pre inner post h X y
  · rfl

/-- **C118.** `score` of the two pipelines returns, or raises, the same; a final inner pipeline may end with an estimator that does not transform. -/
theorem C118_score (n : Name) (pre inner post : List (Step V Y P S)) (hi : inner ≠ []) (h : post ≠ [] → AllTransform inner) (X : V) (y : Option Y) :
    callScore (nested n pre inner post) X y = callScore (pre ++ inner ++ post) X y := by
  unfold callScore
  rw [(has_nested n pre inner post hi).2.2.2.2]
  split_ifs with hs
  · exact score_nested n pre inner post hi h hs X y
  · rfl

/-- The inner pipeline of the examples: adds a number and doubles data. -/
def exInner : List (Step Nat Nat Nat Nat) := [⟨['b'], .est exAdd, 0⟩, ⟨['p'], .passthrough, 0⟩, ⟨['c'], .est exDouble, 0⟩]

/-- Steps before and after it. -/
def exPre : List (Step Nat Nat Nat Nat) := [⟨['a'], .est exAdd, 0⟩]

/-- Steps before and after it. -/
def exPost : List (Step Nat Nat Nat Nat) := [⟨['e'], .est exAdd, 0⟩]

theorem exInner_lawful : ∀ s ∈ exInner, Lawful s := by
  intro s hs e he
  simp only [exInner, List.mem_cons, List.not_mem_nil, or_false] at hs
  rcases hs with rfl | rfl | rfl
  · cases he
    exact Or.inl (plainMixin_isTransformer _ _)
  · cases he
  · cases he
    exact Or.inr (mixin_isResampler _ _ _)

example : ValidSteps (nested ['n'] exPre exInner exPost) ∧ ValidSteps (exPre ++ exInner ++ exPost) := by
  constructor <;> (rw [← validate_iff]; decide +kernel)

example : List.Forall₂ (Readdressed ['n'] exPre exInner exPost) [("a__u".toList, 1), ("c__u".toList, 5), ("b__v".toList, 2)] [("a__u".toList, 1), ("n__c__u".toList, 5), ("n__b__v".toList, 2)] := by
  have hb := (split2_eq_some_iff "b__v".toList ['b'] ['v']).1 (by decide)
  have hc := (split2_eq_some_iff "c__u".toList ['c'] ['u']).1 (by decide)
  have ha := (split2_eq_some_iff "a__u".toList ['a'] ['u']).1 (by decide)
  refine .cons ⟨rfl, Or.inr ⟨⟨_, List.mem_cons_self, rfl, _, ha⟩, rfl⟩⟩ (.cons ⟨rfl, Or.inl ⟨⟨exInner[2], ?_, rfl, _, hc⟩, rfl⟩⟩ (.cons ⟨rfl, Or.inl ⟨⟨exInner[0], ?_, rfl, _, hb⟩, rfl⟩⟩ .nil))
  · exact List.getElem_mem _
  · exact List.getElem_mem _

example : (Pipeline.fitTransformResample (nested ['n'] exPre exInner exPost) 3 (some 10) [("a__u".toList, 1), ("n__c__u".toList, 5), ("n__b__v".toList, 2)]).2 = .ok (some (64, some 25)) ∧
    allStates (Pipeline.fitTransformResample (nested ['n'] exPre exInner exPost) 3 (some 10) [("a__u".toList, 1), ("n__c__u".toList, 5), ("n__b__v".toList, 2)]).1 = [4, 9, 0, 15, 32] ∧
    (Pipeline.fitTransformResample (exPre ++ exInner ++ exPost) 3 (some 10) [("a__u".toList, 1), ("c__u".toList, 5), ("b__v".toList, 2)]).2 = .ok (some (64, some 25)) := by
  refine ⟨?_, ?_, ?_⟩ <;> decide +kernel

/-- **C118 is false of `resample`.** Both pipelines have the method and all steps resample, but a nested pipeline resamples `None` whatever it is given. -/
theorem C118_refuted_resample : ∃ (e : Est Nat Nat Nat Nat), IsResampler e ∧
    callResample ([⟨['a'], .est e, 0⟩] ++ [⟨['b'], .est e, 0⟩] ++ []) () (some 10) = .ok (some 12) ∧ callResample (nested ['n'] [⟨['a'], .est e, 0⟩] [⟨['b'], .est e, 0⟩] []) () (some 10) = .ok (some 1) :=
  ⟨mixin (fun s _ _ _ => (s, .ok ())) (fun _ X => .ok X) (fun _ y => .ok (y.getD 0 + 1)), mixin_isResampler _ _ _, by decide +kernel, by decide +kernel⟩

/-- **C118 is false if the inner pipeline ends with a step that has `fit` and `transform` only.** In the flat pipeline it is fitted and transforms; in the nested one `fit` raises when there are targets, because the
`fit_transform_resample` of the inner pipeline returns `None`. -/
theorem C118_refuted_incomplete : ∃ (e : Est Nat Nat Nat Nat) (s l : Step Nat Nat Nat Nat), s.kind = .est e ∧ (∃ tr, e.transform = some tr) ∧ e.fitTransform = none ∧ Lawful l ∧
    ValidSteps (nested ['n'] [] [s] [l]) ∧ ValidSteps ([] ++ [s] ++ [l]) ∧ (Pipeline.fit ([] ++ [s] ++ [l]) 3 (some 10) []).2 = .ok () ∧
    (Pipeline.fit (nested ['n'] [] [s] [l]) 3 (some 10) []).2 = .error .typeError ∧ (Pipeline.fit (nested ['n'] [] [s] [l]) 3 none []).2 = .ok () := by
  refine ⟨{ exAdd with fitTransform := none }, ⟨['b'], .est { exAdd with fitTransform := none }, 0⟩, ⟨['e'], .est exAdd, 0⟩, rfl, ⟨_, rfl⟩, rfl, ?_, ?_, ?_, ?_, ?_, ?_⟩
  · intro e he
    cases he
    exact Or.inl (plainMixin_isTransformer _ _)
  · rw [← validate_iff]; decide +kernel
  · rw [← validate_iff]; decide +kernel
  all_goals decide +kernel

end Gtda.Props

namespace Gtda.Props.PipelineNesting

open Py Gtda.Pipeline Gtda.PipelineNesting Gtda.Spec.PipelineNesting Gtda.PipelineCache Gtda.Spec.PipelineCache

variable {V Y P S : Type}

/-! ### Helpers for C119 -/

theorem mem_iter (steps : List (Step V Y P S)) (es : Est V Y P S × S) (h : es ∈ iter steps) : ∃ s ∈ steps, s.kind = .est es.1 ∧ s.state = es.2 := by
  unfold iter at h
  rw [List.mem_filterMap] at h
  obtain ⟨s, hs, h⟩ := h
  cases hk : s.kind with
  | none => rw [hk] at h; cases h
  | passthrough => rw [hk] at h; cases h
  | est e =>
    rw [hk] at h
    cases h
    exact ⟨s, hs, hk, rfl⟩

/-- A chain of calls none of which raises `AttributeError` does not raise it. -/
theorem foldlM_no_attr {A B : Type} (l : List B) (g : A → B → PyM A) (h : ∀ a, ∀ b ∈ l, g a b ≠ .error .attributeError) : ∀ a, l.foldlM g a ≠ .error .attributeError := by
  induction l with
  | nil => intro a; exact nofun
  | cons b t ih =>
    intro a
    rw [List.foldlM_cons]
    have hb := h a b List.mem_cons_self
    cases hg : g a b with
    | error e =>
      intro he
      rw [hg] at hb
      exact hb he
    | ok a' => exact ih (fun a b hb => h a b (List.mem_cons_of_mem _ hb)) a'

theorem validate_front (steps : List (Step V Y P S)) (hv : validateSteps steps = .ok ()) : AllTransform steps.dropLast := by
  intro s hs e he
  unfold validateSteps at hv
  dsimp only at hv
  split_ifs at hv with h1 h2 h3 h4 h5
  by_contra hx
  apply h5
  rw [List.any_eq_true]
  refine ⟨s, hs, ?_⟩
  rw [he]
  dsimp only
  cases ht : e.transform with
  | none => rfl
  | some f => rw [ht] at hx; exact absurd rfl hx

theorem validate_ne (steps : List (Step V Y P S)) (hv : validateSteps steps = .ok ()) : steps ≠ [] := by
  rintro rfl
  cases hv

theorem mem_front_or_last (steps : List (Step V Y P S)) (s : Step V Y P S) (hs : s ∈ steps) : s ∈ steps.dropLast ∨ steps.getLast? = some s := by
  rcases List.eq_nil_or_concat steps with rfl | ⟨f, l, rfl⟩
  · cases hs
  · rw [List.concat_eq_append] at *
    rw [List.dropLast_concat, List.getLast?_concat]
    rcases List.mem_append.1 hs with h | h
    · exact Or.inl h
    · rw [List.mem_singleton] at h
      rw [h]
      exact Or.inr rfl

theorem finalEst_some (steps : List (Step V Y P S)) (e : Est V Y P S) : finalEst steps = some e ↔ ∃ s, steps.getLast? = some s ∧ s.kind = .est e := by
  unfold finalEst
  cases hl : steps.getLast? with
  | none => simp
  | some s =>
    dsimp only
    cases hk : s.kind with
    | none => simp [hk]
    | passthrough => simp [hk]
    | est e' => simp [hk]

theorem finalHas_iff (steps : List (Step V Y P S)) (Q : Est V Y P S → Prop) : FinalHas steps Q ↔ ∀ e, finalEst steps = some e → Q e := by
  constructor
  · intro h e he
    obtain ⟨s, hs, hk⟩ := (finalEst_some steps e).1 he
    exact h s e hs hk
  · intro h s e hs hk
    exact h e ((finalEst_some steps e).2 ⟨s, hs, hk⟩)

theorem transformResampleOne_no_attr (steps : List (Step V Y P S)) (hq : NoAttributeError steps) (Xy : V × Option Y) (s : Step V Y P S) (hs : s ∈ steps) (e : Est V Y P S) (hk : s.kind = .est e)
    (h : e.transformResample.isSome = true ∨ e.transform.isSome = true) : transformResampleOne Xy (e, s.state) ≠ .error .attributeError := by
  obtain ⟨q1, q2, _, _⟩ := hq s hs e hk
  unfold transformResampleOne
  dsimp only
  cases ht : e.transformResample with
  | some f => exact q2 f ht _ _ _
  | none =>
    dsimp only
    cases hu : e.transform with
    | none => rw [ht, hu] at h; simp at h
    | some f =>
      have := q1 f hu s.state Xy.1
      show (f s.state Xy.1 >>= _) ≠ _
      cases hg : f s.state Xy.1 with
      | error err =>
        intro he
        rw [hg] at this
        exact this (by cases he; rfl)
      | ok v => exact nofun

theorem nameSplit (a b k j : List Char) (ha : '-' ∉ a) (hb : '-' ∉ b) (h : a ++ '-' :: k = b ++ '-' :: j) : a = b ∧ k = j := by
  induction a generalizing b with
  | nil =>
    cases b with
    | nil =>
      rw [List.nil_append, List.nil_append] at h
      injection h with _ h
      exact ⟨rfl, h⟩
    | cons c b =>
      rw [List.nil_append, List.cons_append] at h
      injection h with h1 _
      exact absurd (h1 ▸ List.mem_cons_self) hb
  | cons c a ih =>
    cases b with
    | nil =>
      rw [List.nil_append, List.cons_append] at h
      injection h with h1 _
      exact absurd (h1 ▸ List.mem_cons_self) ha
    | cons d b =>
      rw [List.cons_append, List.cons_append] at h
      injection h with h1 h2
      obtain ⟨h3, h4⟩ := ih b (fun hx => ha (List.mem_cons_of_mem _ hx)) (fun hx => hb (List.mem_cons_of_mem _ hx)) h2
      exact ⟨by rw [h1, h3], h4⟩

theorem nameEstimators_length (show_ : Nat → List Char) (names : List Name) : (nameEstimators show_ names).length = names.length := by
  simp [nameEstimators]

theorem nameEstimators_get (show_ : Nat → List Char) (names : List Name) (i : Nat) (hi : i < names.length) :
    (nameEstimators show_ names)[i]'(by rw [nameEstimators_length]; exact hi) = if 1 < names.count names[i] then names[i] ++ '-' :: show_ ((names.take (i + 1)).count names[i]) else names[i] := by
  unfold nameEstimators
  simp

theorem count_take_lt (names : List Name) (i j : Nat) (hij : i < j) (hj : j < names.length) (x : Name) (hx : names[j] = x) : (names.take (i + 1)).count x < (names.take (j + 1)).count x := by
  rw [List.take_add_one (i := j), List.getElem?_eq_getElem hj, Option.toList_some, List.count_append, hx, List.count_singleton_self]
  have h1 : (names.take j).take (i + 1) = names.take (i + 1) := by
    rw [List.take_take, Nat.min_eq_left (by omega)]
  have h2 : ((names.take j).take (i + 1)).count x ≤ (names.take j).count x := List.Sublist.count_le x (List.take_sublist _ _)
  rw [h1] at h2
  omega

end Gtda.Props.PipelineNesting

namespace Gtda.Props

open Py Gtda.Pipeline Gtda.PipelineNesting Gtda.Spec.PipelineNesting Gtda.PipelineCache Gtda.Spec.PipelineCache PipelineNesting

variable {V Y P S : Type}

/-- **C119.** For valid steps whose methods do not raise `AttributeError` themselves, `transform` raises it only if the final step is an estimator without `transform`. -/
theorem C119_transform (steps : List (Step V Y P S)) (hvalid : ValidSteps steps) (hq : NoAttributeError steps) (X : V) :
    callTransform steps X = .error .attributeError ↔ ¬ FinalHas steps fun e => e.transform.isSome = true := by
  have hv := (validate_iff steps).2 hvalid
  have hh : hasTransform steps = true ↔ FinalHas steps fun e => e.transform.isSome = true := by
    rw [finalHas_iff]
    unfold hasTransform
    cases finalEst steps with
    | none => simp
    | some e => simp
  unfold callTransform
  split_ifs with h
  · rw [← hh]
    refine ⟨fun hx => absurd hx ?_, fun hx => absurd h hx⟩
    refine foldlM_no_attr _ _ ?_ X
    intro X es hes
    obtain ⟨s, hs, hk, _⟩ := mem_iter steps es hes
    have ht : es.1.transform.isSome = true := by
      rcases mem_front_or_last steps s hs with h1 | h1
      · exact validate_front steps hv s h1 _ hk
      · exact hh.1 h s _ h1 hk
    cases hu : es.1.transform with
    | none => rw [hu] at ht; cases ht
    | some f => exact (hq s hs _ hk).1 f hu _ _
  · rw [← hh]
    exact ⟨fun _ => h, fun _ => rfl⟩

/-- **C119.** The same for `transform_resample`: it is missing only if the final step is an estimator with neither `transform_resample` nor `transform`. -/
theorem C119_transform_resample (steps : List (Step V Y P S)) (hvalid : ValidSteps steps) (hq : NoAttributeError steps) (X : V) (y : Option Y) :
    callTransformResample steps X y = .error .attributeError ↔ ¬ FinalHas steps fun e => e.transformResample.isSome = true ∨ e.transform.isSome = true := by
  have hv := (validate_iff steps).2 hvalid
  have hh : hasTransformResample steps = true ↔ FinalHas steps fun e => e.transformResample.isSome = true ∨ e.transform.isSome = true := by
    rw [finalHas_iff]
    unfold hasTransformResample
    cases finalEst steps with
    | none => simp
    | some e => cases h1 : e.transformResample <;> simp [h1]
  unfold callTransformResample
  split_ifs with h
  · rw [← hh]
    refine ⟨fun hx => absurd hx ?_, fun hx => absurd h hx⟩
    refine foldlM_no_attr _ _ ?_ (X, y)
    intro Xy es hes
    obtain ⟨s, hs, hk, hst⟩ := mem_iter steps es hes
    have := transformResampleOne_no_attr steps hq Xy s hs es.1 hk (by
      rcases mem_front_or_last steps s hs with h1 | h1
      · exact Or.inr (validate_front steps hv s h1 _ hk)
      · exact hh.1 h s _ h1 hk)
    rw [hst] at this
    exact this
  · rw [← hh]
    exact ⟨fun _ => h, fun _ => rfl⟩

/-- **C119.** `inverse_transform` raises `AttributeError` only if some estimator has no `inverse_transform`; then no method of any step is called. -/
theorem C119_inverse (steps : List (Step V Y P S)) (hq : NoAttributeError steps) (X : V) (y : Option Y) :
    callInverse steps X y = .error .attributeError ↔ ∃ s ∈ steps, ∃ e, s.kind = .est e ∧ e.inverse = none := by
  have hh : hasInverse steps = true ↔ ¬ ∃ s ∈ steps, ∃ e, s.kind = .est e ∧ e.inverse = none := by
    unfold hasInverse
    rw [List.all_eq_true]
    constructor
    · rintro h ⟨s, hs, e, hk, hi⟩
      have := h (e, s.state) (by
        unfold iter
        rw [List.mem_filterMap]
        exact ⟨s, hs, by rw [hk]⟩)
      rw [hi] at this
      cases this
    · intro h es hes
      obtain ⟨s, hs, hk, _⟩ := mem_iter steps es hes
      cases hi : es.1.inverse with
      | none => exact absurd ⟨s, hs, es.1, hk, hi⟩ h
      | some i => rfl
  unfold callInverse
  split_ifs with h
  · refine ⟨fun hx => absurd hx ?_, fun hx => absurd hx (hh.1 h)⟩
    rw [inverseTransform_eq]
    refine foldlM_no_attr _ _ ?_ X
    intro X es hes
    rw [List.mem_reverse] at hes
    obtain ⟨s, hs, hk, _⟩ := mem_iter steps es hes
    unfold invOne
    cases hi : es.1.inverse with
    | none => exact absurd ⟨s, hs, es.1, hk, hi⟩ (hh.1 h)
    | some i =>
      cases i with
      | one f => exact nofun
      | two f => exact (hq s hs _ hk).2.2.1 f hi _ _ _
  · exact ⟨fun _ => by_contra fun hx => h (hh.2 hx), fun _ => rfl⟩

/-- **C119.** `score` raises `AttributeError` only if the final step is no estimator or an estimator without `score`. -/
theorem C119_score (steps : List (Step V Y P S)) (hvalid : ValidSteps steps) (hq : NoAttributeError steps) (X : V) (y : Option Y) :
    callScore steps X y = .error .attributeError ↔ ¬ ∃ s e, steps.getLast? = some s ∧ s.kind = .est e ∧ e.score.isSome = true := by
  have hv := (validate_iff steps).2 hvalid
  have hh : hasScore steps = true ↔ ∃ s e, steps.getLast? = some s ∧ s.kind = .est e ∧ e.score.isSome = true := by
    unfold hasScore
    constructor
    · intro h
      cases hf : finalEst steps with
      | none => rw [hf] at h; cases h
      | some e =>
        rw [hf] at h
        obtain ⟨s, hs, hk⟩ := (finalEst_some steps e).1 hf
        exact ⟨s, e, hs, hk, h⟩
    · rintro ⟨s, e, hs, hk, h⟩
      rw [(finalEst_some steps e).2 ⟨s, hs, hk⟩]
      exact h
  unfold callScore
  split_ifs with h
  · rw [← hh]
    refine ⟨fun hx => absurd hx ?_, fun hx => absurd h hx⟩
    obtain ⟨s, e, hs, hk, hsc⟩ := hh.1 h
    unfold score
    have hfront := foldlM_no_attr (iter steps.dropLast) transformResampleOne (by
      intro Xy es hes
      obtain ⟨t, ht, hkt, hst⟩ := mem_iter _ es hes
      have := transformResampleOne_no_attr steps hq Xy t (List.dropLast_subset _ ht) es.1 hkt (Or.inr (validate_front steps hv t ht _ hkt))
      rw [hst] at this
      exact this) (X, y)
    cases hz : (iter steps.dropLast).foldlM transformResampleOne (X, y) with
    | error err =>
      intro he
      rw [hz] at hfront
      exact hfront (by cases he; rfl)
    | ok Xy =>
      rw [hs]
      have h1 : iter (some s).toList = [(e, s.state)] := by
        unfold iter
        rw [Option.toList_some, List.filterMap_cons, hk]
        rfl
      show (match iter (some s).toList with
        | [(e, st)] => do (← attr e.score) st Xy.1 Xy.2
        | _ => .error .attributeError) ≠ _
      rw [h1]
      cases hu : e.score with
      | none => rw [hu] at hsc; cases hsc
      | some f =>
        dsimp only
        rw [hu]
        exact (hq s (List.mem_of_getLast? hs) e hk).2.2.2 f hu _ _ _
  · rw [← hh]
    exact ⟨fun _ => h, fun _ => rfl⟩

example : ValidSteps (exPre ++ exInner) ∧ FinalHas (exPre ++ exInner) (fun e => e.transform.isSome = true) ∧ callTransform (exPre ++ exInner) 3 = .ok 6 ∧
    callInverse (exPre ++ exInner) 3 = .error .attributeError ∧ callScore (exPre ++ exInner) 3 none = .error .attributeError := by
  refine ⟨?_, ?_, ?_, ?_, ?_⟩
  · rw [← validate_iff]; decide +kernel
  · intro s e hs hk
    cases hs
    cases hk
    rfl
  all_goals decide +kernel

example : NoAttributeError (exPre ++ exInner) := by
  intro s hs e hk
  simp only [exPre, exInner, List.cons_append, List.nil_append, List.mem_cons, List.not_mem_nil, or_false] at hs
  rcases hs with rfl | rfl | rfl | rfl
  · cases hk
    refine ⟨?_, ?_, ?_, ?_⟩ <;> intro f hf
    · cases hf; intro st X; exact nofun
    · cases hf
    · cases hf
    · cases hf
  · cases hk
    refine ⟨?_, ?_, ?_, ?_⟩ <;> intro f hf
    · cases hf; intro st X; exact nofun
    · cases hf
    · cases hf
    · cases hf
  · cases hk
  · cases hk
    refine ⟨?_, ?_, ?_, ?_⟩ <;> intro f hf
    · cases hf; intro st X; exact nofun
    · cases hf
      intro st X y
      cases y <;> exact nofun
    · cases hf
    · cases hf

/-- **C119 is false of `resample`.** A valid pipeline whose final step resamples has the method, but calling it raises `AttributeError` if a transformer comes before. -/
theorem C119_refuted_resample : ∃ steps : List (Step Nat Nat Nat Nat), ValidSteps steps ∧ (∀ s ∈ steps, Lawful s) ∧ FinalHas steps (fun e => e.resample.isSome = true) ∧
    hasResample steps = true ∧ transformResample steps 3 (some 10) = .ok (6, some 10) ∧ callResample steps 3 (some 10) = .error .attributeError := by
  refine ⟨exInner, (validate_iff _).1 (by decide +kernel), exInner_lawful, ?_, by decide +kernel, by decide +kernel, by decide +kernel⟩
  intro s e hs hk
  cases hs
  cases hk
  rfl

/-- **C119.** `fit_predict` fits the steps before the final one like the other methods: it calls the final step's `fit_predict` with the data and targets that come out of a pipeline in which the final step is
`'passthrough'`, with its fit parameters, and only the final step changes beyond that. If an earlier step raises, so does `fit_predict`, and the final step is unchanged. -/
theorem C119_fit_predict {A : Type} (f : S → V → Option Y → Dict P → S × PyM A) (front : List (Step V Y P S)) (last : Step V Y P S) (e : Est V Y P S) (hk : last.kind = .est e)
    (hvalid : ValidSteps (front ++ [last])) (X : V) (y : Option Y) (D : Dict P) (hD : IsDict D) (ha : ∀ kv ∈ D, AddressedTo (front ++ [last]) kv.1) :
    ∃ front', (Pipeline.fitTransformResample (front ++ [{ last with kind := .passthrough }]) X y D).1 = front' ++ [{ last with kind := .passthrough }] ∧
    (∀ X' y', (Pipeline.fitTransformResample (front ++ [{ last with kind := .passthrough }]) X y D).2 = .ok (some (X', y')) →
      ∃ prm, (∀ p v, (p, v) ∈ prm ↔ ∃ k, (k, v) ∈ D ∧ FirstSplit k last.name p) ∧
        fitPredict (some f) (front ++ [last]) X y D = (front' ++ [{ last with state := (f last.state X' y' prm).1 }], (f last.state X' y' prm).2)) ∧
    ∀ err, (Pipeline.fitTransformResample (front ++ [{ last with kind := .passthrough }]) X y D).2 = .error err →
      fitPredict (some f) (front ++ [last]) X y D = (front' ++ [last], .error err) := by
  have hv := (validate_iff _).2 hvalid
  have hvp : validateSteps (front ++ [{ last with kind := .passthrough }]) = .ok () := by
    rw [← hv]
    unfold validateSteps
    rw [List.dropLast_concat, List.dropLast_concat]
    simp
  have hap : ∀ kv ∈ D, AddressedTo (front ++ [{ last with kind := .passthrough }]) kv.1 := by
    intro kv hkv
    obtain ⟨s, hs, h1, h2⟩ := ha kv hkv
    rcases List.mem_append.1 hs with hs | hs
    · exact ⟨s, List.mem_append_left _ hs, h1, h2⟩
    · rw [List.mem_singleton] at hs
      subst hs
      exact ⟨_, List.mem_append_right _ List.mem_cons_self, rfl, h2⟩
  have hr := routeParams_ok _ hv D hD ha
  have hrp := routeParams_ok _ hvp D hD hap
  have hlive : liveNames (front ++ [{ last with kind := .passthrough }]) = liveNames (front ++ [last]) := by
    unfold liveNames
    rw [List.filter_append, List.filter_append, List.map_append, List.map_append]
    congr 1
    simp [Kind.isNone, hk]
  rw [hlive] at hrp
  have kn := known_ok (front ++ [last]) D
  generalize (liveNames (front ++ [last])).map (fun m => (m, Pipeline.own m D)) = fps at hr hrp kn
  have h1 : fitPredict (some f) (front ++ [last]) X y D = match fitLoop fps front X y with
      | (front', .error err) => (front' ++ [last], .error err)
      | (front', .ok r) => (front' ++ [{ last with state := (f last.state r.1 r.2 (Pipeline.own last.name D)).1 }], (f last.state r.1 r.2 (Pipeline.own last.name D)).2) := by
    unfold fitPredict
    have hfe : finalEst (front ++ [last]) = some e := (finalEst_some _ _).2 ⟨last, List.getLast?_concat, hk⟩
    rw [hfe]
    dsimp only
    unfold withFinal fitInner
    rw [hv, hr]
    dsimp only
    rw [List.dropLast_concat, List.getLast?_concat]
    rcases fitLoop fps front X y with ⟨front', err | r⟩
    · rfl
    · dsimp only
      rw [hk]
      dsimp only
      rw [kn last (by simp) e hk]
      dsimp only
      rw [hk]
  have h2 : Pipeline.fitTransformResample (front ++ [{ last with kind := .passthrough }]) X y D = match fitLoop fps front X y with
      | (front', .error err) => (front' ++ [{ last with kind := .passthrough }], .error err)
      | (front', .ok r) => (front' ++ [{ last with kind := .passthrough }], .ok (some r)) := by
    unfold Pipeline.fitTransformResample withFinal fitInner
    rw [hvp, hrp]
    dsimp only
    rw [List.dropLast_concat, List.getLast?_concat]
    rcases fitLoop fps front X y with ⟨front', err | r⟩ <;> rfl
  rw [h1, h2]
  rcases fitLoop fps front X y with ⟨front', err | r⟩
  · exact ⟨front', rfl, fun X' y' hx => (by cases hx), fun err' he => (by cases he; rfl)⟩
  · refine ⟨front', rfl, ?_, fun err' he => (by cases he)⟩
    intro X' y' hx
    cases hx
    refine ⟨Pipeline.own last.name D, ?_, rfl⟩
    intro p v
    rw [mem_own]

/-- Without such a method of the final step, `fit_predict` raises `AttributeError` and fits nothing. -/
theorem C119_no_fit_predict {A : Type} (f : Option (S → V → Option Y → Dict P → S × PyM A)) (steps : List (Step V Y P S)) (X : V) (y : Option Y) (D : Dict P)
    (h : f = none ∨ ∀ s e, steps.getLast? = some s → s.kind ≠ .est e) : fitPredict f steps X y D = (steps, .error .attributeError) := by
  unfold fitPredict
  rcases h with rfl | h
  · cases finalEst steps <;> rfl
  · have : finalEst steps = none := by
      cases hf : finalEst steps with
      | none => rfl
      | some e =>
        obtain ⟨s, hs, hk⟩ := (finalEst_some steps e).1 hf
        exact absurd hk (h s e hs)
    rw [this]

example : fitPredict (some fun s X y prm => (s + X, .ok (X, y, prm))) (exPre ++ [⟨['c'], .est exDouble, 7⟩]) 3 (some 10) [("a__u".toList, 1), ("c__k".toList, 5)] =
    ([⟨['a'], .est exAdd, 4⟩, ⟨['c'], .est exDouble, 14⟩], .ok (7, some 10, [(['k'], 5)])) := rfl

/-- **C119.** `make_pipeline` keeps the estimators in order and gives them distinct names, whatever classes occur how often: class names contain no hyphen, and different numbers are written differently. -/
theorem C119_names {A B : Type} (show_ : Nat → List Char) (hshow : Function.Injective show_) (lower : A → Name) (hlow : ∀ a, '-' ∉ lower a) (steps : List A) (kwargs : List (Name × B))
    (r : List (Name × A) × Option B) (h : makePipeline show_ lower steps kwargs = .ok r) :
    r.1.map Prod.snd = steps ∧ (r.1.map Prod.fst).Nodup ∧ ∀ na ∈ r.1, na.1 = lower na.2 ∨ ∃ k, 0 < k ∧ k ≤ (steps.map lower).count (lower na.2) ∧ na.1 = lower na.2 ++ '-' :: show_ k := by
  unfold makePipeline at h
  dsimp only at h
  split_ifs at h with h0
  injection h with h
  subst h
  dsimp only
  have hlen : (nameEstimators show_ (steps.map lower)).length = steps.length := by rw [nameEstimators_length, List.length_map]
  refine ⟨List.map_snd_zip (by omega), ?_, ?_⟩
  · rw [List.map_fst_zip (by omega), List.nodup_iff_getElem?_ne_getElem?]
    intro i j hij hj
    rw [hlen] at hj
    rw [List.getElem?_eq_getElem (by omega), List.getElem?_eq_getElem (by omega), nameEstimators_get _ _ _ (by simp; omega), nameEstimators_get _ _ _ (by simp; omega)]
    intro he
    injection he with he
    have hi' : '-' ∉ (steps.map lower)[i]'(by simp; omega) := by
      rw [List.getElem_map]
      exact hlow _
    have hj' : '-' ∉ (steps.map lower)[j]'(by simp; omega) := by
      rw [List.getElem_map]
      exact hlow _
    have hcount : ∀ (hx : (steps.map lower)[i]'(by simp; omega) = (steps.map lower)[j]'(by simp; omega)),
        ((steps.map lower).take (i + 1)).count ((steps.map lower)[j]'(by simp; omega)) < ((steps.map lower).take (j + 1)).count ((steps.map lower)[j]'(by simp; omega)) :=
      fun _ => count_take_lt _ i j hij _ _ rfl
    have hpos : ∀ (hx : (steps.map lower)[i]'(by simp; omega) = (steps.map lower)[j]'(by simp; omega)), 1 < (steps.map lower).count ((steps.map lower)[j]'(by simp; omega)) := by
      intro hx
      have h1 := hcount hx
      have h2 : 0 < ((steps.map lower).take (i + 1)).count ((steps.map lower)[j]'(by simp; omega)) := by
        rw [List.count_pos_iff, ← hx]
        exact List.mem_take_iff_getElem.2 ⟨i, by simp; omega, rfl⟩
      have h3 : ((steps.map lower).take (j + 1)).count ((steps.map lower)[j]'(by simp; omega)) ≤ (steps.map lower).count ((steps.map lower)[j]'(by simp; omega)) :=
        List.Sublist.count_le _ (List.take_sublist _ _)
      omega
    split_ifs at he with c1 c2 c2
    · obtain ⟨h1, h2⟩ := nameSplit _ _ _ _ hi' hj' he
      have h3 := hcount h1
      rw [h1] at h2
      have h4 := hshow h2
      omega
    · rw [← he] at hj'
      exact hj' (by simp)
    · rw [he] at hi'
      exact hi' (by simp)
    · exact c2 (hpos he)
  · intro na hna
    obtain ⟨i, hi, hni⟩ := List.mem_iff_getElem.1 hna
    rw [List.length_zip, hlen, Nat.min_self] at hi
    rw [List.getElem_zip] at hni
    rw [← hni]
    dsimp only
    rw [nameEstimators_get _ _ _ (by simp; omega)]
    rw [List.getElem_map]
    split_ifs with c
    · refine Or.inr ⟨_, ?_, ?_, rfl⟩
      · rw [List.count_pos_iff]
        exact List.mem_take_iff_getElem.2 ⟨i, by simp; omega, by simp⟩
      · exact List.Sublist.count_le _ (List.take_sublist _ _)
    · exact Or.inl rfl

/-- **C119.** The only keyword argument of `make_pipeline` is `memory`; another one raises `TypeError`, and `memory` is passed on. -/
theorem C119_keywords {A B : Type} (show_ : Nat → List Char) (lower : A → Name) (steps : List A) (kwargs : List (Name × B)) :
    (makePipeline show_ lower steps kwargs = .error .typeError ↔ ∃ kv ∈ kwargs, kv.1 ≠ "memory".toList) ∧
    ∀ r, makePipeline show_ lower steps kwargs = .ok r → ∀ v, kwargs = [("memory".toList, v)] → r.2 = some v := by
  unfold makePipeline
  dsimp only
  constructor
  · split_ifs with h0
    · refine ⟨fun h => (by cases h), ?_⟩
      rintro ⟨kv, hkv, hne⟩
      rw [List.isEmpty_iff, List.filter_eq_nil_iff] at h0
      exact absurd (by simpa using hne) (h0 kv hkv)
    · refine ⟨fun _ => ?_, fun _ => rfl⟩
      rw [List.isEmpty_iff, List.filter_eq_nil_iff] at h0
      push Not at h0
      obtain ⟨kv, hkv, hne⟩ := h0
      exact ⟨kv, hkv, by simpa using hne⟩
  · intro r hr v hv
    subst hv
    split_ifs at hr with h0
    injection hr with hr
    rw [← hr]
    rfl

example : makePipeline (B := Unit) (fun n => List.replicate n '|') (fun n : Nat => if n < 10 then "small".toList else "big".toList) [1, 20, 3, 4] [] =
    .ok ([("small-|".toList, 1), ("big".toList, 20), ("small-||".toList, 3), ("small-|||".toList, 4)], none) := by decide +kernel

end Gtda.Props
