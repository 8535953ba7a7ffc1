import Verif.Props.MapperSession

set_option autoImplicit false
set_option linter.unusedSectionVars false

namespace Gtda.Props.MSession

open Py Gtda.MParams Gtda.MInter Gtda.MSession Gtda.Spec.MSession

variable {A G C D N T H M : Type}

theorem newGraph_error (e : Engine A G (C × D) N T H M) (st : State A G (C × D) N T H M) :
    (newGraphError e st = none ∧ (newGraph e st).valid = true) ∨ (∃ x, newGraphError e st = some x ∧ (newGraph e st).valid = false ∧ ∀ y, e.fit st.pipeline = .error y → x = y) := by
  unfold newGraphError newGraph
  cases hf : e.fit st.pipeline with
  | error x => exact .inr ⟨x, rfl, rfl, fun y hy => by cases hy; rfl⟩
  | ok g =>
      dsimp only
      have hn : ∀ (x : PyErr) y, (Except.ok g : PyM G) = .error y → x = y := fun x y h => by cases h
      cases e.graphData st.color g with
      | error x => exact .inr ⟨x, rfl, rfl, hn x⟩
      | ok tn =>
          dsimp only
          unfold drawError draw drawTracesError drawTraces
          dsimp only
          by_cases hc : st.colored = true
          · rw [if_pos hc, if_pos hc]
            cases e.labels tn.2 with
            | error x => exact .inr ⟨x, rfl, rfl, hn x⟩
            | ok y =>
                dsimp only
                cases makeMenu e st.color st.colored tn.2 tn.1 st.fig.menu with
                | error x => exact .inr ⟨x, rfl, rfl, hn x⟩
                | ok m => exact .inl ⟨rfl, rfl⟩
          · rw [if_neg hc, if_neg hc]
            cases makeMenu e st.color st.colored tn.2 tn.1 st.fig.menu with
            | error x => exact .inr ⟨x, rfl, rfl, hn x⟩
            | ok m => exact .inl ⟨rfl, rfl⟩

theorem update_records (e : Engine A G (C × D) N T H M) (st : State A G (C × D) N T H M) :
    ((update e st).valid = true ∧ updateRecords e st = [.updating]) ∨
    ((update e st).valid = false ∧ ∃ x, updateRecords e st = [.failed x] ∨
      (updateRecords e st = [.updating, .failed x] ∧ ∀ y, e.fit (update e st).pipeline = .error y → x = y)) := by
  unfold updateRecords update
  cases push st.widgets st.pushed st.pipeline with
  | mk v o =>
      cases o with
      | some x => exact .inr ⟨rfl, x, .inl rfl⟩
      | none =>
          dsimp only
          rcases newGraph_error e (st.withPipeline v) with ⟨h1, h2⟩ | ⟨x, h1, h2, h3⟩
          · rw [h1]
            exact .inl ⟨h2, rfl⟩
          · rw [h1]
            refine .inr ⟨h2, x, .inr ⟨rfl, fun y hy => h3 y ?_⟩⟩
            rw [(newGraph_frame e (st.withPipeline v)).1] at hy
            exact hy

/-- Entering a value in an observed widget changes what is displayed exactly if the callback is called. -/
theorem reacts_iff [DecidableEq A] (e : Engine A G (C × D) N T H M) (st : State A G (C × D) N T H M) (n : Name) (a : A) (ho : st.observed = st.widgets.map Prod.fst) :
    (reacts st n a = false → change e st n a = st) ∧
    (reacts st n a = true → change e st n a = update e { st with widgets := MInter.enter st.widgets n a } ∧ (change e st n a).widgets ≠ st.widgets) := by
  unfold reacts change
  cases hw : widgetValue st.widgets n with
  | none => exact ⟨fun _ => rfl, fun h => by cases h⟩
  | some old =>
      dsimp only
      by_cases h : a = old
      · rw [if_pos h]
        refine ⟨fun _ => rfl, fun hr => ?_⟩
        simp [h] at hr
      · rw [lookup_widget] at hw
        have hn : n ∈ st.observed := by
          rw [ho]
          exact (lookup_isSome _ _).1 ⟨old, hw⟩
        rw [if_neg h, if_pos hn]
        refine ⟨fun hr => ?_, fun _ => ⟨rfl, ?_⟩⟩
        · simp [h, hn] at hr
        · rw [(update_frame e _).2.1]
          dsimp only
          intro heq
          have h1 := lookup_enter st.widgets n n a
          rw [heq, hw, if_pos rfl] at h1
          simp at h1
          exact h h1.symm

theorem log_none (s : Session A G C D N T H M) (k : Nat) (h : s.calls[k]? = none) : s.log k = none := by
  unfold Session.log
  rw [h]
  rfl

/-- What a step does to the logs. -/
theorem log_step [DecidableEq A] (kind : A → Kind) (s : Session A G C D N T H M) (hw : WF s) (ev : Event A G C D N T H M) :
    ∃ rs, Reports kind s ev rs ∧ (∀ k l, s.log k = some l → (step kind s ev).log k = some (logAfter k [(ev, rs)] l)) ∧
      (∀ k, s.log k = none → (step kind s ev).log k = none ∨ (step kind s ev).log k = some []) := by
  cases ev with
  | new u b => exact ⟨[], rfl, fun k l h => h, fun k h => .inl h⟩
  | tick j b =>
      have hc := tick_spec s j b
      have : ∀ k, (s.tick j b).log k = s.log k := by
        intro k
        unfold Session.log
        rw [hc]
        cases s.calls[k]? with
        | none => rfl
        | some x => by_cases e : j = k <;> simp [e]
      exact ⟨[], rfl, fun k l h => (this k).trans h, fun k h => .inl ((this k).trans h)⟩
  | plot i e =>
      refine ⟨[], rfl, ?_⟩
      show (∀ k l, s.log k = some l → (s.plot kind i e).log k = some l) ∧ (∀ k, s.log k = none → (s.plot kind i e).log k = none ∨ (s.plot kind i e).log k = some [])
      rcases plot_spec kind s i e with ⟨-, h0⟩ | ⟨q, v', q1, q2, q3, q4, q5⟩
      · rw [h0]
        exact ⟨fun k l h => h, fun k h => .inl h⟩
      · unfold Session.log
        rw [q5]
        refine ⟨fun k l h => ?_, fun k h => ?_⟩
        · obtain ⟨x, hx, rfl⟩ := Option.map_eq_some_iff.1 h
          rw [getElem?_old _ _ _ _ hx]
          rfl
        · rw [Option.map_eq_none_iff] at h
          have hk := List.getElem?_eq_none_iff.1 h
          rcases Nat.lt_or_eq_of_le hk with hk | hk
          · exact .inl (by rw [List.getElem?_eq_none (by simp; omega)]; rfl)
          · refine .inr ?_
            rw [← hk, getElem?_new]
            rcases plotBody_cases kind v' s.calls.length { q with pipeline := some (if q.clone then .clone s.calls.length else .user q.user) } (⟨i, e, v', none, none, []⟩ : Call A G C D N T H M) with
              ⟨hb, -⟩ | ⟨st', hst, hb⟩
            · rw [hb]
              rfl
            · rw [hb]
              rfl
  | enter j n a cl =>
      rcases enter_spec s j n a cl with ⟨h00, h0⟩ | ⟨c, p, st, h1, h2, h3, h4, h5, h6⟩
      · have hstep : step kind s (.enter j n a cl) = s := h0
        refine ⟨[], ⟨fun _ => rfl, fun h => absurd (by rw [hstep]) h⟩, fun k l h => ?_, fun k h => .inl ?_⟩
        · rw [hstep]
          exact h
        · rw [hstep]
          exact h
      · have hstep : step kind s (.enter j n a cl) = s.enter j n a cl := rfl
        obtain ⟨c', w, p', r, v, col, f, cf, a1, a2, a3, a4, a5, a6, a7, a8, a9, a10, a11, a12⟩ := view_some s j st h3
        rw [h1] at a1
        cases a1
        rw [h2] at a3
        cases a3
        have ho : st.observed = st.widgets.map Prod.fst := by
          rw [a12]
          exact hw.names j c w h1 a2
        obtain ⟨r1, r2⟩ := reacts_iff c.engine st n a ho
        have hwid : (s.enter j n a cl).widgets j = some (change c.engine st n a).widgets := by
          unfold Session.widgets
          rw [h4, h1, Option.map_some, Option.bind_some]
          simp only [callAfter]
          rw [a2]
          simp [Panel.update]
        have hval : (s.enter j n a cl).valid j = some (change c.engine st n a).valid := by
          unfold Session.valid
          rw [h4, h1, Option.map_some, Option.bind_some]
          simp only [callAfter]
          rw [a2]
          simp [Panel.update]
        have hold : s.widgets j = some st.widgets := by
          unfold Session.widgets
          rw [h1, Option.bind_some, a2, a12]
          rfl
        have hpipe : (s.enter j n a cl).pipeline_ c.plotter = .ok (change c.engine st n a).pipeline := by
          have hp := enter_pipe s (s.enter j n a cl) p j (change c.engine st n a) _ h4 h6
          unfold Session.pipeline_ Session.attr
          have h7 := h5 c.plotter
          rw [h2, Option.map_some, if_pos rfl] at h7
          rw [h7]
          dsimp only
          rw [a4, Option.bind_some, hp, a5, Option.map_some, if_pos a4]
        refine ⟨emitted c.engine st n a, ⟨fun hn => ?_, fun hn => ?_⟩, fun k l h => ?_, fun k h => .inl ?_⟩
        · unfold Changes at hn
          rw [hstep, hwid, hold, not_not, Option.some.injEq] at hn
          unfold emitted
          cases hr : reacts st n a with
          | false => rfl
          | true => exact absurd hn (r2 hr).2
        · unfold Changes at hn
          rw [hstep, hwid, hold] at hn
          unfold emitted
          cases hr : reacts st n a with
          | false => exact absurd (by rw [r1 hr]) hn
          | true =>
              rw [if_pos rfl, hstep, hval, (r2 hr).1]
              rcases update_records c.engine { st with widgets := MInter.enter st.widgets n a } with ⟨h7, h8⟩ | ⟨h7, x, h8⟩
              · exact .inl ⟨by rw [h7], h8⟩
              · refine .inr ⟨by rw [h7], x, ?_⟩
                rcases h8 with h8 | ⟨h8, h9⟩
                · exact .inl h8
                · refine .inr ⟨h8, fun c' v' y k1 k2 k3 => ?_⟩
                  rw [h1] at k1
                  cases k1
                  rw [hpipe, (r2 hr).1] at k2
                  cases k2
                  exact h9 y k3
        · show (s.enter j n a cl).log k = _
          unfold Session.log at h ⊢
          obtain ⟨x, hx, rfl⟩ := Option.map_eq_some_iff.1 h
          rw [h4, hx]
          rfl
        · show (s.enter j n a cl).log k = _
          unfold Session.log at h ⊢
          rw [Option.map_eq_none_iff] at h
          rw [h4, h]
          rfl

/-- What a step does to the validity shown. -/
theorem valid_step [DecidableEq A] (kind : A → Kind) (s : Session A G C D N T H M) (hw : WF s) (ev : Event A G C D N T H M) (k : Nat) :
    (∀ b, s.valid k = some b → ((∀ n a cl, ev ≠ .enter k n a cl) ∨ ¬ Changes kind s ev k) → (step kind s ev).valid k = some b) ∧
    (s.valid k = none → (step kind s ev).valid k = none ∨ ((step kind s ev).valid k = some true ∧ (step kind s ev).log k = some [])) := by
  cases ev with
  | new u b => exact ⟨fun b h _ => h, fun h => .inl h⟩
  | tick j b =>
      have hc := tick_spec s j b
      have : (s.tick j b).valid k = s.valid k := by
        unfold Session.valid
        rw [hc]
        cases s.calls[k]? with
        | none => rfl
        | some x =>
            by_cases e : j = k
            · simp only [e, Option.map_some, if_true, Option.bind_some]
              cases x.panel with
              | none => rfl
              | some w => simp only [Option.map_some, Panel.tick]; split <;> rfl
            · simp [e]
      exact ⟨fun b h _ => this.trans h, fun h => .inl (this.trans h)⟩
  | plot i e =>
      show (∀ b, s.valid k = some b → _ → (s.plot kind i e).valid k = some b) ∧ (s.valid k = none → (s.plot kind i e).valid k = none ∨ ((s.plot kind i e).valid k = some true ∧ (s.plot kind i e).log k = some []))
      rcases plot_spec kind s i e with ⟨-, h0⟩ | ⟨q, v', q1, q2, q3, q4, q5⟩
      · rw [h0]
        exact ⟨fun b h _ => h, fun h => .inl h⟩
      · unfold Session.valid Session.log
        rw [q5]
        rcases Nat.lt_trichotomy k s.calls.length with hk | hk | hk
        · rw [List.getElem?_append_left hk]
          exact ⟨fun b h _ => h, fun h => .inl h⟩
        · subst hk
          rw [getElem?_new, List.getElem?_eq_none (Nat.le_refl _)]
          refine ⟨fun b h _ => (by cases h), fun _ => ?_⟩
          rcases plotBody_cases kind v' s.calls.length { q with pipeline := some (if q.clone then .clone s.calls.length else .user q.user) } (⟨i, e, v', none, none, []⟩ : Call A G C D N T H M) with
            ⟨hb, -⟩ | ⟨st', hst, hb⟩
          · rw [hb]
            exact .inl rfl
          · rw [hb]
            refine .inr ⟨?_, rfl⟩
            show some st'.valid = some true
            rw [(plot_names kind _ true v' st' hst).2.1]
        · rw [show s.calls[k]? = none from List.getElem?_eq_none (by omega), List.getElem?_append_right (by omega), List.getElem?_eq_none (by simp; omega)]
          exact ⟨fun b h _ => h, fun h => .inl h⟩
  | enter j n a cl =>
      show (∀ b, s.valid k = some b → _ → (s.enter j n a cl).valid k = some b) ∧ (s.valid k = none → (s.enter j n a cl).valid k = none ∨ ((s.enter j n a cl).valid k = some true ∧ (s.enter j n a cl).log k = some []))
      rcases enter_spec s j n a cl with ⟨h00, h0⟩ | ⟨c, p, st, h1, h2, h3, h4, h5, h6⟩
      · rw [h0]
        exact ⟨fun b h _ => h, fun h => .inl h⟩
      · obtain ⟨c', w, p', r, v, col, f, cf, a1, a2, a3, a4, a5, a6, a7, a8, a9, a10, a11, a12⟩ := view_some s j st h3
        rw [h1] at a1
        cases a1
        have ho : st.observed = st.widgets.map Prod.fst := by
          rw [a12]
          exact hw.names j c w h1 a2
        obtain ⟨r1, r2⟩ := reacts_iff c.engine st n a ho
        by_cases e : j = k
        · subst e
          have hold : s.valid j = some st.valid := by
            unfold Session.valid
            rw [h1, Option.bind_some, a2, a12]
            rfl
          have hwold : s.widgets j = some st.widgets := by
            unfold Session.widgets
            rw [h1, Option.bind_some, a2, a12]
            rfl
          have hwid : (s.enter j n a cl).widgets j = some (change c.engine st n a).widgets := by
            unfold Session.widgets
            rw [h4, h1, Option.map_some, Option.bind_some]
            simp only [callAfter]
            rw [a2]
            simp [Panel.update]
          have hval : (s.enter j n a cl).valid j = some (change c.engine st n a).valid := by
            unfold Session.valid
            rw [h4, h1, Option.map_some, Option.bind_some]
            simp only [callAfter]
            rw [a2]
            simp [Panel.update]
          refine ⟨fun b hb hch => ?_, fun h => ?_⟩
          · rcases hch with hch | hch
            · exact absurd rfl (hch n a cl)
            · rw [← hb, hold, hval]
              cases hr : reacts st n a with
              | false => rw [r1 hr]
              | true =>
                  refine absurd ?_ hch
                  unfold Changes
                  show (s.enter j n a cl).widgets j ≠ _
                  rw [hwid, hwold]
                  exact fun x => (r2 hr).2 (Option.some.inj x)
          · rw [hold] at h
            cases h
        · have hval : (s.enter j n a cl).valid k = s.valid k := by
            unfold Session.valid
            rw [h4]
            cases s.calls[k]? with
            | none => rfl
            | some x => simp [callAfter, e]
          exact ⟨fun b h _ => hval.trans h, fun h => .inl (hval.trans h)⟩

theorem logAfter_cons (k : Nat) (x : Event A G C D N T H M × List Record) (h : List (Event A G C D N T H M × List Record)) (l : List Record) :
    logAfter k (x :: h) l = logAfter k h (logAfter k [x] l) := by
  obtain ⟨ev, rs⟩ := x
  cases ev <;> rfl

theorem log_run [DecidableEq A] (kind : A → Kind) (h : List (Event A G C D N T H M)) : ∀ (s : Session A G C D N T H M), WF s →
    ∃ rss : List (List Record), rss.length = h.length ∧ (∀ (t : Nat) ev, h[t]? = some ev → ∃ rs, rss[t]? = some rs ∧ Reports kind (run kind s (h.take t)) ev rs) ∧
      ∀ k l, s.log k = some l → (run kind s h).log k = some (logAfter k (h.zip rss) l) := by
  induction h with
  | nil => exact fun s _ => ⟨[], rfl, fun t ev ht => by simp at ht, fun k l hl => hl⟩
  | cons ev h ih =>
      intro s hw
      obtain ⟨rs, h1, h2, -⟩ := log_step kind s hw ev
      obtain ⟨rss, i1, i2, i3⟩ := ih _ (wf_step kind s hw ev)
      refine ⟨rs :: rss, by simp [i1], fun t ev' ht => ?_, fun k l hl => ?_⟩
      · cases t with
        | zero =>
            simp at ht
            subst ht
            exact ⟨rs, rfl, h1⟩
        | succ t => exact i2 t ev' (by simpa using ht)
      · rw [List.zip_cons_cons, logAfter_cons]
        exact i3 k _ (h2 k l hl)

end Gtda.Props.MSession

namespace Gtda.Props

open Py Gtda.MParams Gtda.MInter Gtda.MSession Gtda.Spec.MSession Gtda.Props.MSession

section Session

variable {A G C D N T H M : Type}

/-- **C133.** The logs after any history: every event reports something or nothing (see `Reports`), this goes to the logs of all plots of the session, and a log is emptied only by changes in its own
plot. Logs of new plots are empty. -/
theorem C133_log [DecidableEq A] (kind : A → Kind) (users : List (Val A)) (before h : List (Event A G C D N T H M)) :
    ∃ reports : List (List Record), reports.length = h.length ∧
      (∀ (t : Nat) ev, h[t]? = some ev → ∃ rs, reports[t]? = some rs ∧ Reports kind (run kind (start users) (before ++ h.take t)) ev rs) ∧
      (∀ k l, (run kind (start users) before).log k = some l → (run kind (start users) (before ++ h)).log k = some (logAfter k (h.zip reports) l)) := by
  obtain ⟨rss, h1, h2, h3⟩ := log_run (G := G) (C := C) (D := D) (N := N) (T := T) (H := H) (M := M) kind h _ (hist_run kind users before).1
  refine ⟨rss, h1, fun t ev ht => ?_, fun k l hl => ?_⟩
  · rw [run_append]
    exact h2 t ev ht
  · rw [run_append]
    exact h3 k l hl

/-- **C133.** The log of a call of `plot`, successful or not, starts empty. -/
theorem C133_new_log [DecidableEq A] (kind : A → Kind) (users : List (Val A)) (h : List (Event A G C D N T H M)) (ev : Event A G C D N T H M) (k : Nat)
    (hk : (run kind (start users) h).log k = none) :
    (run kind (start users) (h ++ [ev])).log k = none ∨ (run kind (start users) (h ++ [ev])).log k = some [] := by
  obtain ⟨-, -, -, h1⟩ := log_step kind _ (hist_run (G := G) (C := C) (D := D) (N := N) (T := T) (H := H) (M := M) kind users h).1 ev
  rw [run_append]
  exact h1 k hk

/-- **C133.** If values are entered in one plot only and its log is emptied in time, then the log is about the latest change: the message if the parameters are valid, the exception otherwise. -/
theorem C133_own_log_partial [DecidableEq A] (kind : A → Kind) (users : List (Val A)) (h : List (Event A G C D N T H M)) (k : Nat) (b : Bool) (l : List Record)
    (honly : ∀ j n a cl, (.enter j n a cl : Event A G C D N T H M) ∈ h → j = k ∧ cl = true)
    (hv : (run kind (start users) h).valid k = some b) (hl : (run kind (start users) h).log k = some l) :
    (b = true ∧ (l = [] ∨ l = [.updating])) ∨ (b = false ∧ ∃ x, l = [.failed x] ∨ l = [.failed x, .updating]) := by
  induction h using List.reverseRecOn generalizing b l with
  | nil =>
      exfalso
      simp [run, start, Session.log] at hl
  | append_singleton h ev ih =>
      obtain ⟨hw, hh⟩ := hist_run (G := G) (C := C) (D := D) (N := N) (T := T) (H := H) (M := M) kind users h
      have ih := fun b l => ih b l fun j n a cl hm => honly j n a cl (List.mem_append_left _ hm)
      rw [run_append] at hv hl
      generalize run kind (start users) h = s at ih hw hh hv hl
      have hv : (step kind s ev).valid k = some b := hv
      have hl : (step kind s ev).log k = some l := hl
      obtain ⟨v1, v2⟩ := valid_step kind s hw ev k
      obtain ⟨rs, g1, g2, -⟩ := log_step kind s hw ev
      cases hvk : s.valid k with
      | none =>
          rcases v2 hvk with h1 | ⟨h1, h2⟩
          · rw [h1] at hv
            cases hv
          · rw [h1] at hv
            rw [h2] at hl
            cases hv
            cases hl
            exact .inl ⟨rfl, .inl rfl⟩
      | some b' =>
          have hlk : ∃ l', s.log k = some l' := by
            unfold Session.valid at hvk
            unfold Session.log
            cases hc : s.calls[k]? with
            | none => rw [hc] at hvk; cases hvk
            | some x => exact ⟨x.log, rfl⟩
          obtain ⟨l', hlk⟩ := hlk
          have g2 := g2 k l' hlk
          rw [hl] at g2
          have g2 := Option.some.inj g2
          have ih := ih b' l' hvk hlk
          have same : rs = [] → (step kind s ev).valid k = some b' → (b = true ∧ (l = [] ∨ l = [.updating])) ∨ (b = false ∧ ∃ x, l = [.failed x] ∨ l = [.failed x, .updating]) := by
            intro hrs hvs
            rw [hv] at hvs
            cases hvs
            have : l = l' := by
              rw [g2, hrs]
              cases ev <;> rfl
            rw [this]
            exact ih
          cases ev with
          | new u d => exact same g1 (v1 b' hvk (.inl fun n a cl he => by cases he))
          | plot i e => exact same g1 (v1 b' hvk (.inl fun n a cl he => by cases he))
          | tick j d => exact same g1 (v1 b' hvk (.inl fun n a cl he => by cases he))
          | enter j n a cl =>
              obtain ⟨rfl, rfl⟩ := honly j n a cl (List.mem_append_right _ (List.mem_singleton.2 rfl))
              by_cases hch : Changes kind s (.enter j n a true) j
              · have hlog : rs ≠ [] → l = rs.reverse := by
                  intro hne
                  rw [g2]
                  simp [logAfter, hne]
                rcases g1.2 hch with ⟨h1, h2⟩ | ⟨h1, x, h2⟩
                · rw [hv] at h1
                  cases h1
                  refine .inl ⟨rfl, .inr ?_⟩
                  rw [hlog (by rw [h2]; simp), h2]
                  rfl
                · rw [hv] at h1
                  cases h1
                  refine .inr ⟨rfl, x, ?_⟩
                  rcases h2 with h2 | ⟨h2, -⟩
                  · left
                    rw [hlog (by rw [h2]; simp), h2]
                    rfl
                  · right
                    rw [hlog (by rw [h2]; simp), h2]
                    rfl
              · exact same (g1.1 hch) (v1 b' hvk (.inr hch))

/-- **C133 (refuted: logs of several plots).** A change which fails in one plot is reported as the newest record in the log of every other plot, whose parameters are reported as valid as before. -/
theorem C133_refuted_own_log [DecidableEq A] (kind : A → Kind) (users : List (Val A)) (h : List (Event A G C D N T H M)) (j k : Nat) (hjk : j ≠ k) (n : Name) (a : A) (cl : Bool) (b : Bool)
    (hv : (run kind (start users) h).valid k = some b) (hok : (run kind (start users) h).valid j = some true)
    (hfail : (run kind (start users) (h ++ [.enter j n a cl])).valid j = some false) :
    (run kind (start users) (h ++ [.enter j n a cl])).valid k = some b ∧
      ∃ x l, (run kind (start users) (h ++ [.enter j n a cl])).log k = some (.failed x :: l) := by
  obtain ⟨hw, -⟩ := hist_run (G := G) (C := C) (D := D) (N := N) (T := T) (H := H) (M := M) kind users h
  rw [run_append] at hfail ⊢
  generalize run kind (start users) h = s at hw hv hok hfail
  have hfail : (step kind s (.enter j n a cl)).valid j = some false := hfail
  show (step kind s (.enter j n a cl)).valid k = some b ∧ ∃ x l, (step kind s (.enter j n a cl)).log k = some (.failed x :: l)
  obtain ⟨v1, -⟩ := valid_step kind s hw (.enter j n a cl) k
  obtain ⟨u1, -⟩ := valid_step kind s hw (.enter j n a cl) j
  refine ⟨v1 b hv (.inl fun n' a' cl' he => by cases he; exact hjk rfl), ?_⟩
  obtain ⟨rs, g1, g2, -⟩ := log_step kind s hw (.enter j n a cl)
  have hch : Changes kind s (.enter j n a cl) j := by
    by_contra hn
    rw [u1 true hok (.inr hn)] at hfail
    cases hfail
  have hlk : ∃ l', s.log k = some l' := by
    unfold Session.valid at hv
    unfold Session.log
    cases hc : s.calls[k]? with
    | none => rw [hc] at hv; cases hv
    | some x => exact ⟨x.log, rfl⟩
  obtain ⟨l', hlk⟩ := hlk
  rcases g1.2 hch with ⟨h1, -⟩ | ⟨-, x, h2⟩
  · rw [hfail] at h1
    cases h1
  · rw [g2 k l' hlk]
    rcases h2 with h2 | ⟨h2, -⟩
    · exact ⟨x, l', by rw [h2]; simp [logAfter, hjk]⟩
    · exact ⟨x, .updating :: l', by rw [h2]; simp [logAfter, hjk]⟩

/-- **C133.** The log is displayed exactly while the box `Show logs` is ticked. -/
theorem C133_displayed [DecidableEq A] (kind : A → Kind) (users : List (Val A)) (before after : List (Event A G C D N T H M)) (i : Nat) (e : Engine A G (C × D) N T H M)
    (hplot : (run kind (start users) (before ++ [.plot i e])).valid (run kind (start users) before : Session A G C D N T H M).calls.length ≠ none) :
    let s := run kind (start users) (before ++ .plot i e :: after)
    let k := (run kind (start users) before : Session A G C D N T H M).calls.length
    s.displayed k = if ticked k after then s.log k else none := by
  intro s k
  have hs : s = run kind ((run kind (start users) before).plot kind i e) after := by
    show run kind (start users) (before ++ .plot i e :: after) = _
    rw [run_append]
    rfl
  have hplot : ((run kind (start users) before).plot kind i e).valid k ≠ none := by
    rw [run_append] at hplot
    exact hplot
  have h0 : ∃ c w, ((run kind (start users) before).plot kind i e).calls[k]? = some c ∧ c.panel = some w ∧ w.box = false ∧ w.shown = false := by
    generalize hk : k = k' at hplot
    have hk : (run kind (start users) before : Session A G C D N T H M).calls.length = k' := hk
    generalize run kind (start users) before = s0 at hk hplot
    rcases plot_spec kind s0 i e with ⟨-, h0⟩ | ⟨q, v', q1, q2, q3, q4, q5⟩
    · rw [h0, ← hk] at hplot
      unfold Session.valid at hplot
      rw [List.getElem?_eq_none (Nat.le_refl _)] at hplot
      exact absurd rfl hplot
    · rcases plotBody_cases kind v' s0.calls.length { q with pipeline := some (if q.clone then .clone s0.calls.length else .user q.user) } (⟨i, e, v', none, none, []⟩ : Call A G C D N T H M) with
        ⟨hb, -⟩ | ⟨st', hst, hb⟩
      · rw [hb] at q5
        unfold Session.valid at hplot
        rw [q5, ← hk, getElem?_new] at hplot
        exact absurd rfl hplot
      · rw [hb] at q5
        have := congrArg (fun l => l[k']?) q5
        dsimp only at this
        rw [← hk, getElem?_new, hk] at this
        exact ⟨_, _, this, rfl, rfl, rfl⟩
  have hinv : ∃ c w, s.calls[k]? = some c ∧ c.panel = some w ∧ w.box = ticked k after ∧ w.shown = ticked k after := by
    rw [hs]
    generalize (run kind (start users) before).plot kind i e = s1 at h0
    clear hs hplot
    clear s
    generalize k = k at h0
    induction after using List.reverseRecOn with
    | nil => exact h0
    | append_singleton h ev ih =>
        rw [run_append]
        obtain ⟨c, w, c1, c2, c3, c4⟩ := ih
        generalize run kind s1 h = s2 at c1
        show ∃ c w, (step kind s2 ev).calls[k]? = some c ∧ _
        have hother : (∀ b, ev ≠ .tick k b) → ticked k (h ++ [ev]) = ticked k h := by
          intro hne
          unfold ticked
          rw [List.filterMap_append]
          cases ev with
          | tick j b =>
              have : j ≠ k := fun x => hne b (by rw [x])
              simp [this]
          | new => simp
          | plot => simp
          | enter => simp
        cases ev with
        | new u b =>
            rw [hother fun b hb => by cases hb]
            exact ⟨c, w, c1, c2, c3, c4⟩
        | plot i' e' =>
            rw [hother fun b hb => by cases hb]
            show ∃ c w, (s2.plot kind i' e').calls[k]? = some c ∧ _
            rcases plot_spec kind s2 i' e' with ⟨-, h0⟩ | ⟨q, v', q1, q2, q3, q4, q5⟩
            · rw [h0]
              exact ⟨c, w, c1, c2, c3, c4⟩
            · rw [q5]
              exact ⟨c, w, getElem?_old _ _ _ _ c1, c2, c3, c4⟩
        | enter j n a cl =>
            rw [hother fun b hb => by cases hb]
            show ∃ c w, (s2.enter j n a cl).calls[k]? = some c ∧ _
            rcases enter_spec s2 j n a cl with ⟨-, h0⟩ | ⟨x, p, st, h1, h2, h3, h4, h5, h6⟩
            · rw [h0]
              exact ⟨c, w, c1, c2, c3, c4⟩
            · have h7 := h4 k
              rw [c1, Option.map_some] at h7
              refine ⟨_, if j = k then Panel.update (change x.engine st n a).widgets (change x.engine st n a).valid w else w, h7, ?_, ?_⟩
              · simp only [callAfter]
                rw [c2]
                split <;> rfl
              · split
                · exact ⟨c3, c4⟩
                · exact ⟨c3, c4⟩
        | tick j b =>
            show ∃ c w, (s2.tick j b).calls[k]? = some c ∧ _
            have h7 := tick_spec s2 j b k
            rw [c1, Option.map_some] at h7
            by_cases ej : j = k
            · rw [if_pos ej] at h7
              have htk : ticked k (h ++ [(.tick j b : Event A G C D N T H M)]) = b := by
                unfold ticked
                rw [List.filterMap_append]
                simp [ej]
              rw [htk]
              refine ⟨_, Panel.tick b w, h7, by rw [c2]; rfl, ?_⟩
              unfold Panel.tick
              split
              · rename_i hb
                exact ⟨hb, by rw [c4, ← c3, hb]⟩
              · exact ⟨rfl, rfl⟩
            · rw [if_neg ej] at h7
              rw [hother fun b' hb => by cases hb; exact ej rfl]
              exact ⟨c, w, h7, c2, c3, c4⟩
  obtain ⟨c, w, c1, c2, c3, c4⟩ := hinv
  unfold Session.displayed Session.log
  rw [c1, Option.bind_some, c2, Option.bind_some, c4]
  rfl

/-- **C133.** Before the first call of `plot`, the attributes of a plotter cannot be read; after a successful one they can. -/
theorem C133_attributes [DecidableEq A] (kind : A → Kind) (users : List (Val A)) (h : List (Event A G C D N T H M)) (i : Nat) (x : Nat × Bool) (hi : (created h)[i]? = some x) :
    ((∀ ev ∈ h, ¬ IsPlotOf i ev) → (run kind (start users) h : Session A G C D N T H M).graph_ i = .error .attributeError ∧
      (run kind (start users) h : Session A G C D N T H M).pipeline_ i = .error .attributeError ∧ (run kind (start users) h : Session A G C D N T H M).figure_ i = .error .attributeError) ∧
    (∀ k c, (run kind (start users) h : Session A G C D N T H M).calls[k]? = some c → c.plotter = i → (run kind (start users) h : Session A G C D N T H M).valid k ≠ none →
      ∃ v g col n f, (run kind (start users) h : Session A G C D N T H M).pipeline_ i = .ok v ∧ (run kind (start users) h : Session A G C D N T H M).graph_ i = .ok g ∧
        (run kind (start users) h : Session A G C D N T H M).color_features_ i = .ok col ∧ (run kind (start users) h : Session A G C D N T H M).node_summaries_ i = .ok n ∧
        (run kind (start users) h : Session A G C D N T H M).figure_ i = .ok f) := by
  obtain ⟨hw, hh⟩ := hist_run (G := G) (C := C) (D := D) (N := N) (T := T) (H := H) (M := M) kind users h
  have hpl := hh.made i
  rw [hi, Option.map_eq_some_iff] at hpl
  obtain ⟨p, p1, p2⟩ := hpl
  refine ⟨fun hno => ?_, fun k c hc hci hv => ?_⟩
  · have hnone : ∀ p, (run kind (start users) h : Session A G C D N T H M).plotters[i]? = some p → p.pipeline = none ∧ p.graph = none ∧ p.figure = none := by
      clear hw hh p1 p2 p hi
      induction h using List.reverseRecOn with
      | nil => exact fun p hp => by simp [run, start] at hp
      | append_singleton h ev ih =>
          have ih := ih fun ev' hm => hno ev' (List.mem_append_left _ hm)
          have hev := hno ev (List.mem_append_right _ (List.mem_singleton.2 rfl))
          obtain ⟨hw, hh⟩ := hist_run (G := G) (C := C) (D := D) (N := N) (T := T) (H := H) (M := M) kind users h
          have hcalls : ∀ (k : Nat) c, (run kind (start users) h : Session A G C D N T H M).calls[k]? = some c → c.plotter ≠ i := by
            intro k c hc e
            obtain ⟨ev', h1, h2⟩ := hh.calls k c hc
            exact hno ev' (List.mem_append_left _ h1) (e ▸ h2)
          rw [run_append]
          generalize run kind (start users) h = s at ih hcalls hw hh
          intro p hp
          have hp : (step kind s ev).plotters[i]? = some p := hp
          cases ev with
          | new u b =>
              rcases getElem?_snoc _ _ _ _ hp with hp | ⟨-, rfl⟩
              · exact ih p hp
              · exact ⟨rfl, rfl, rfl⟩
          | tick j b => exact ih p hp
          | plot j e =>
              have hp : (s.plot kind j e).plotters[i]? = some p := hp
              rcases plot_spec kind s j e with ⟨-, h0⟩ | ⟨q, v', q1, q2, q3, q4, q5⟩
              · rw [h0] at hp
                exact ih p hp
              · rw [q4, Option.map_eq_some_iff] at hp
                obtain ⟨p', hp', hp⟩ := hp
                rw [if_neg (by exact hev)] at hp
                subst hp
                exact ih p' hp'
          | enter j n a cl =>
              have hp : (s.enter j n a cl).plotters[i]? = some p := hp
              rcases enter_spec s j n a cl with ⟨-, h0⟩ | ⟨x, p', st, h1, h2, h3, h4, h5, h6⟩
              · rw [h0] at hp
                exact ih p hp
              · rw [h5, Option.map_eq_some_iff] at hp
                obtain ⟨p'', hp', hp⟩ := hp
                rw [if_neg (hcalls j x h1)] at hp
                subst hp
                exact ih p'' hp'
    obtain ⟨h1, h2, h3⟩ := hnone p p1
    unfold Session.graph_ Session.pipeline_ Session.figure_ Session.attr
    rw [p1]
    dsimp only
    rw [h1, h2, h3]
    exact ⟨rfl, rfl, rfl⟩
  · have hpan : ∃ w, c.panel = some w := by
      unfold Session.valid at hv
      rw [hc, Option.bind_some] at hv
      cases hx : c.panel with
      | none => rw [hx] at hv; exact absurd rfl hv
      | some w => exact ⟨w, rfl⟩
    obtain ⟨w, hpan⟩ := hpan
    obtain ⟨st, hst⟩ := wf_view _ hw k c w hc hpan
    obtain ⟨c', w', p', r, v, col, f, cf, a1, a2, a3, a4, a5, a6, a7, a8, a9, a10, a11, a12⟩ := view_some _ k st hst
    rw [hc] at a1
    cases a1
    rw [hci, p1] at a3
    cases a3
    unfold Session.graph_ Session.pipeline_ Session.figure_ Session.color_features_ Session.node_summaries_ Session.attr
    rw [p1]
    dsimp only
    rw [a4, a6, a7, a8, a9, Option.bind_some, Option.bind_some, a5, a10, Option.bind_some, a11]
    exact ⟨v, st.graph, col, st.summaries, st.fig, rfl, rfl, rfl, rfl, rfl⟩

end Session

/-! ## Concrete cases -/

section Sample

/-- The engine of the sample plot, with colour data and a column name. -/
def sessionEngine : Engine Nat Nat (Nat × Nat) Nat Nat Nat Nat :=
  { fit := fun v => if intervalsOf v = 0 then .error .valueError else .ok (intervalsOf v)
    check := .ok (1, 7)
    graphData := fun _ g => if g = 1 then .error .typeError else .ok (g + 1000, g)
    labels := fun n => .ok n
    columns := Prod.fst
    buttons := fun _ _ n _ => .ok n
    dim3 := false
    given := false
    custom := id }

/-- Events of a session with the sample engine. -/
abbrev SEvent := Event Nat Nat Nat Nat Nat Nat Nat Nat

/-- The number of intervals is entered in call `k`. -/
def intervals (k a : Nat) : SEvent := .enter k "cover__n_intervals".toList a true

/-- A session with one pipeline. -/
def session (h : List SEvent) : Session Nat Nat Nat Nat Nat Nat Nat Nat := run sampleKind (start [mapperPipeline sampleSlots]) h

/-- What can be seen of a plotter and a call: the number of intervals of `pipeline_`, `graph_`, what the widget displays, the traces in the figure, whether the parameters are valid, and the log. -/
structure Seen where
  pipeline : Option Nat
  graph : Option Nat
  widget : Option Nat
  traces : Option Nat
  valid : Option Bool
  log : Option (List Record)
  deriving DecidableEq

/-- What can be seen of plotter `i` and call `k`. -/
def seen (h : List SEvent) (i k : Nat) : Seen :=
  ⟨((session h).pipeline_ i).toOption.map intervalsOf, ((session h).graph_ i).toOption, ((session h).widgets k).bind fun w => widgetValue w "cover__n_intervals".toList,
    ((session h).figureOf k).map Fig.traces, (session h).valid k, (session h).log k⟩

-- Two plotters with clones: each follows its own widgets (`C133_independent`), the caller's pipeline stays (`C133_clones`), but records go to both logs (`C133_log`, `C133_refuted_own_log`).
example : seen [.new 0 true, .new 0 true, .plot 0 sessionEngine, .plot 1 sessionEngine, intervals 0 8, intervals 1 0] 0 0 =
      ⟨some 8, some 8, some 8, some 1008, some true, some [.failed .valueError, .updating, .updating]⟩ ∧
    seen [.new 0 true, .new 0 true, .plot 0 sessionEngine, .plot 1 sessionEngine, intervals 0 8, intervals 1 0] 1 1 =
      ⟨some 0, some 5, some 0, some 1005, some false, some [.failed .valueError, .updating]⟩ ∧
    ((session [.new 0 true, .new 0 true, .plot 0 sessionEngine, .plot 1 sessionEngine, intervals 0 8, intervals 1 0]).users.map intervalsOf) = [5] := by
  refine ⟨?_, ?_, ?_⟩ <;> decide +kernel

-- One plot (`C133_own_log_partial`): the log is about the latest change.
example : seen [.new 0 true, .plot 0 sessionEngine, intervals 0 8, intervals 0 1] 0 0 = ⟨some 1, some 1, some 1, some 1008, some false, some [.failed .typeError, .updating]⟩ ∧
    seen [.new 0 true, .plot 0 sessionEngine, intervals 0 0, intervals 0 9] 0 0 = ⟨some 9, some 9, some 9, some 1009, some true, some [.updating]⟩ := by
  refine ⟨?_, ?_⟩ <;> decide +kernel

-- The log is shown while the box is ticked (`C133_displayed`).
example : (session [.new 0 true, .plot 0 sessionEngine, intervals 0 8, .tick 0 true]).displayed 0 = some [.updating] ∧
    (session [.new 0 true, .plot 0 sessionEngine, .tick 0 true, intervals 0 8, .tick 0 false]).displayed 0 = none := by
  refine ⟨?_, ?_⟩ <;> decide +kernel

/-- **C133 (refuted: `plot` called twice).** After two calls of `plot` of one plotter and a value entered in the first plot, both plots report valid parameters, but the first figure still shows the
graph for 5 intervals although its widget displays 8, and the second figure shows the graph for 8 intervals although its widget displays 5. -/
theorem C133_refuted_replot :
    let h := [.new 0 true, .plot 0 sessionEngine, .plot 0 sessionEngine, intervals 0 8]
    (∃ l, seen h 0 0 = ⟨some 8, some 8, some 8, some 1005, some true, l⟩) ∧ (∃ l, seen h 0 1 = ⟨some 8, some 8, some 5, some 1008, some true, l⟩) :=
  ⟨⟨some [.updating], by decide +kernel⟩, ⟨some [.updating], by decide +kernel⟩⟩

/-- **C133 (refuted: sharing a pipeline).** Two plotters share the caller's pipeline without cloning. After a value entered in the first plot, `pipeline_` of the second has 8 intervals, while its graph
and figure are those for 5, which its widget displays, and its parameters are reported valid. -/
theorem C133_refuted_shared :
    let h := [.new 0 false, .new 0 false, .plot 0 sessionEngine, .plot 1 sessionEngine, intervals 0 8]
    ∃ l, seen h 1 1 = ⟨some 8, some 5, some 5, some 1005, some true, l⟩ :=
  ⟨some [.updating], by decide +kernel⟩

-- The hypotheses of `C133_replaced` and `C133_shared_pipeline` hold in these sessions.
example : (session [.new 0 true, .plot 0 sessionEngine]).calls.length = 1 ∧ (session [.new 0 true, .plot 0 sessionEngine, .plot 0 sessionEngine]).valid 1 = some true ∧
    (created [(.new 0 false : SEvent), .new 0 false])[1]? = some (0, false) := by
  refine ⟨?_, ?_, ?_⟩ <;> decide +kernel

end Sample

end Gtda.Props
