import Verif.Spec.MapperSession
import Verif.Props.MapperInteractive
import Mathlib.Data.List.Induction

set_option autoImplicit false
set_option linter.unusedSectionVars false

namespace Gtda.Props.MSession

open Py Gtda.MParams Gtda.MInter Gtda.MSession Gtda.Spec.MSession

variable {A G C D N T H M : Type}

theorem getElem?_modify' {α : Type} (l : List α) (i j : Nat) (f : α → α) : (l.modify i f)[j]? = (l[j]?).map fun x => if i = j then f x else x := by
  rw [List.getElem?_modify]
  cases l[j]? with
  | none => rfl
  | some x => by_cases h : i = j <;> simp [h]

/-- The result of `plotBody`: it raises, or it succeeds like `plot`. -/
theorem plotBody_cases (kind : A → Kind) (v : Val A) (k : Nat) (p : Plotter G C N) (c : Call A G C D N T H M) :
    ((plotBody kind v k p c).2 = c ∧ (plotBody kind v k p c).1.user = p.user ∧ (plotBody kind v k p c).1.clone = p.clone ∧ (plotBody kind v k p c).1.pipeline = p.pipeline ∧
      (plotBody kind v k p c).1.figure = p.figure ∧ (p.graph.isSome → (plotBody kind v k p c).1.graph.isSome) ∧ (p.color.isSome → (plotBody kind v k p c).1.color.isSome) ∧
      (p.summaries.isSome → (plotBody kind v k p c).1.summaries.isSome) ∧ ∀ st, MInter.plot kind c.engine true v ≠ .ok st) ∨
    ∃ st, MInter.plot kind c.engine true v = .ok st ∧
      plotBody kind v k p c = ({ p with graph := some st.graph, color := some st.color.1, summaries := some st.summaries, figure := some k },
        { c with fig := some st.fig, panel := some ⟨st.pushed, st.observed, st.widgets, st.color.2, st.colored, st.valid, false, false⟩ }) := by
  unfold plotBody MInter.plot
  cases h1 : getMapperParams v true with
  | error => exact .inl ⟨rfl, rfl, rfl, rfl, rfl, id, id, id, fun st h => by cases h⟩
  | ok l =>
      dsimp only
      rw [ok_bind]
      cases h2 : c.engine.fit v with
      | error => exact .inl ⟨rfl, rfl, rfl, rfl, rfl, id, id, id, fun st h => by cases h⟩
      | ok g =>
          dsimp only
          rw [ok_bind]
          cases h3 : c.engine.check with
          | error => exact .inl ⟨rfl, rfl, rfl, rfl, rfl, fun _ => rfl, id, id, fun st h => by cases h⟩
          | ok col =>
              dsimp only
              rw [ok_bind]
              cases h4 : c.engine.graphData col g with
              | error => exact .inl ⟨rfl, rfl, rfl, rfl, rfl, fun _ => rfl, fun _ => rfl, id, fun st h => by cases h⟩
              | ok tn =>
                  dsimp only
                  rw [ok_bind]
                  cases h5 : staticFigure c.engine col tn.1 tn.2 with
                  | error => exact .inl ⟨rfl, rfl, rfl, rfl, rfl, fun _ => rfl, fun _ => rfl, fun _ => rfl, fun st h => by cases h⟩
                  | ok fig => exact .inr ⟨_, rfl, rfl⟩

/-- A call after the changes stored by call `j` of plotter `p`. -/
def callAfter (p : Plotter G C N) (j : Nat) (st : State A G (C × D) N T H M) (m : Nat) (x : Call A G C D N T H M) : Call A G C D N T H M :=
  { x with
    panel := if j = m then x.panel.map (Panel.update st.widgets st.valid) else x.panel
    fig := if p.figure = some m then some st.fig else x.fig
    copy := if p.pipeline = some (.clone m) then st.pipeline else x.copy }

theorem store_spec (s : Session A G C D N T H M) (j : Nat) (st : State A G (C × D) N T H M) (c : Call A G C D N T H M) (p : Plotter G C N)
    (hc : s.calls[j]? = some c) (hp : s.plotters[c.plotter]? = some p) :
    (∀ m : Nat, (s.store j st).calls[m]? = (s.calls[m]?).map (callAfter p j st m)) ∧
    (∀ m : Nat, (s.store j st).plotters[m]? = (s.plotters[m]?).map fun q => if c.plotter = m then { q with graph := some st.graph, summaries := some st.summaries } else q) ∧
    (∀ u : Nat, (s.store j st).users[u]? = (s.users[u]?).map fun v => if p.pipeline = some (.user u) then st.pipeline else v) := by
  unfold Session.store
  rw [hc]
  dsimp only
  rw [hp]
  dsimp only
  refine ⟨fun m => ?_, fun m => ?_, fun u => ?_⟩
  · cases h1 : p.figure with
    | none =>
        cases h2 : p.pipeline with
        | none =>
            dsimp only
            rw [getElem?_modify']
            cases s.calls[m]? with
            | none => rfl
            | some x => by_cases e : j = m <;> simp [callAfter, h1, h2, e]
        | some r =>
            cases r with
            | user u =>
                simp only [Session.setPipe]
                rw [getElem?_modify']
                cases s.calls[m]? with
                | none => rfl
                | some x => by_cases e : j = m <;> simp [callAfter, h1, h2, e]
            | clone q =>
                simp only [Session.setPipe]
                rw [getElem?_modify', getElem?_modify']
                cases s.calls[m]? with
                | none => rfl
                | some x => by_cases e : j = m <;> by_cases e' : q = m <;> simp [callAfter, h1, h2, e, e']
    | some f =>
        cases h2 : p.pipeline with
        | none =>
            dsimp only
            rw [getElem?_modify', getElem?_modify']
            cases s.calls[m]? with
            | none => rfl
            | some x => by_cases e : j = m <;> by_cases e2 : f = m <;> simp [callAfter, h1, h2, e, e2]
        | some r =>
            cases r with
            | user u =>
                simp only [Session.setPipe]
                rw [getElem?_modify', getElem?_modify']
                cases s.calls[m]? with
                | none => rfl
                | some x => by_cases e : j = m <;> by_cases e2 : f = m <;> simp [callAfter, h1, h2, e, e2]
            | clone q =>
                simp only [Session.setPipe]
                rw [getElem?_modify', getElem?_modify', getElem?_modify']
                cases s.calls[m]? with
                | none => rfl
                | some x => by_cases e : j = m <;> by_cases e' : q = m <;> by_cases e2 : f = m <;> simp [callAfter, h1, h2, e, e', e2]
  · have : ∀ (s' : Session A G C D N T H M), s'.plotters = (s.plotters.modify c.plotter fun p => { p with graph := some st.graph, summaries := some st.summaries }) →
        s'.plotters[m]? = (s.plotters[m]?).map fun q => if c.plotter = m then { q with graph := some st.graph, summaries := some st.summaries } else q := by
      intro s' h
      rw [h, getElem?_modify']
    apply this
    cases p.figure <;> (cases p.pipeline with
      | none => rfl
      | some r => cases r <;> rfl)
  · cases p.figure <;> (cases p.pipeline with
      | none => dsimp only; simp
      | some r =>
          cases r with
          | clone => simp [Session.setPipe]
          | user w =>
              simp only [Session.setPipe]
              rw [getElem?_modify']
              cases s.users[u]? with
              | none => rfl
              | some x => by_cases e : w = u <;> simp [e])

theorem emit_all (rs : List Record) (s : Session A G C D N T H M) :
    (∀ m : Nat, (rs.foldl Session.emit s).calls[m]? = (s.calls[m]?).map fun x => { x with log := rs.reverse ++ x.log }) ∧
    (rs.foldl Session.emit s).plotters = s.plotters ∧ (rs.foldl Session.emit s).users = s.users := by
  induction rs generalizing s with
  | nil =>
      refine ⟨fun m => ?_, rfl, rfl⟩
      cases h : s.calls[m]? <;> simp [h]
  | cons r rs ih =>
      obtain ⟨h1, h2, h3⟩ := ih (s.emit r)
      refine ⟨fun m => ?_, h2, h3⟩
      rw [List.foldl_cons, h1]
      unfold Session.emit
      dsimp only
      rw [List.getElem?_map]
      cases h : s.calls[m]? <;> simp

/-- The log of call `m` after a value entered in call `j`. -/
def logNow (rs : List Record) (j m : Nat) (cleared : Bool) (l : List Record) : List Record := if rs = [] then l else rs.reverse ++ (if j = m ∧ cleared = true then [] else l)

/-- What entering a value emits. -/
def emitted [DecidableEq A] (e : Engine A G (C × D) N T H M) (st : State A G (C × D) N T H M) (n : Name) (a : A) : List Record :=
  if reacts st n a then updateRecords e { st with widgets := MInter.enter st.widgets n a } else []

theorem updateRecords_ne (e : Engine A G (C × D) N T H M) (st : State A G (C × D) N T H M) : updateRecords e st ≠ [] := by
  unfold updateRecords
  split
  · simp
  · split <;> simp

theorem view_some (s : Session A G C D N T H M) (k : Nat) (st : State A G (C × D) N T H M) (h : s.view k = some st) :
    ∃ c w p r v col f cf, s.calls[k]? = some c ∧ c.panel = some w ∧ s.plotters[c.plotter]? = some p ∧ p.pipeline = some r ∧ s.pipe r = some v ∧ p.graph = some st.graph ∧
      p.color = some col ∧ p.summaries = some st.summaries ∧ p.figure = some f ∧ s.calls[f]? = some cf ∧ cf.fig = some st.fig ∧
      st = { clone := true, user := v, pipeline := v, pushed := w.pushed, observed := w.observed, widgets := w.widgets, color := (col, w.columns), colored := w.colored
             graph := st.graph, summaries := st.summaries, fig := st.fig, valid := w.valid } := by
  unfold Session.view at h
  simp only [Option.bind_eq_bind, Option.bind_eq_some_iff] at h
  obtain ⟨c, h1, w, h2, p, h3, r, h4, v, h5, g, h6, col, h7, n, h8, f, h9, cf, h10, fig, h11, h12⟩ := h
  cases h12
  exact ⟨c, w, p, r, v, col, f, cf, h1, h2, h3, h4, h5, h6, h7, h8, h9, h10, h11, rfl⟩

theorem view_eq (s : Session A G C D N T H M) (k : Nat) (c : Call A G C D N T H M) (w : Panel A D) (p : Plotter G C N) (r : Ref) (v : Val A) (g : G) (col : C) (n : N) (f : Nat)
    (cf : Call A G C D N T H M) (fig : Fig T H M) (h1 : s.calls[k]? = some c) (h2 : c.panel = some w) (h3 : s.plotters[c.plotter]? = some p) (h4 : p.pipeline = some r)
    (h5 : s.pipe r = some v) (h6 : p.graph = some g) (h7 : p.color = some col) (h8 : p.summaries = some n) (h9 : p.figure = some f) (h10 : s.calls[f]? = some cf) (h11 : cf.fig = some fig) :
    s.view k = some { clone := true, user := v, pipeline := v, pushed := w.pushed, observed := w.observed, widgets := w.widgets, color := (col, w.columns), colored := w.colored
                      graph := g, summaries := n, fig := fig, valid := w.valid } := by
  unfold Session.view
  rw [h1]
  simp only [Option.bind_eq_bind, Option.bind_some, h2, h3, h4, h5, h6, h7, h8, h9, h10, h11]
  rfl

theorem enter_spec [DecidableEq A] (s : Session A G C D N T H M) (k : Nat) (n : Name) (a : A) (cleared : Bool) :
    (s.view k = none ∧ s.enter k n a cleared = s) ∨
    ∃ c p st, s.calls[k]? = some c ∧ s.plotters[c.plotter]? = some p ∧ s.view k = some st ∧
      (∀ m : Nat, (s.enter k n a cleared).calls[m]? = (s.calls[m]?).map fun x =>
        { callAfter p k (change c.engine st n a) m x with log := logNow (emitted c.engine st n a) k m cleared x.log }) ∧
      (∀ m : Nat, (s.enter k n a cleared).plotters[m]? =
        (s.plotters[m]?).map fun q => if c.plotter = m then { q with graph := some (change c.engine st n a).graph, summaries := some (change c.engine st n a).summaries } else q) ∧
      (∀ u : Nat, (s.enter k n a cleared).users[u]? = (s.users[u]?).map fun v => if p.pipeline = some (.user u) then (change c.engine st n a).pipeline else v) := by
  cases hv : s.view k with
  | none =>
      refine .inl ⟨rfl, ?_⟩
      unfold Session.enter
      rw [hv]
      cases s.calls[k]? <;> rfl
  | some st =>
      obtain ⟨c, w, p, r, v, col, f, cf, h1, h2, h3, -⟩ := view_some s k st hv
      obtain ⟨s1, s2, s3⟩ := store_spec s k (change c.engine st n a) c p h1 h3
      refine .inr ⟨c, p, st, h1, h3, rfl, ?_⟩
      unfold Session.enter
      rw [hv, h1]
      dsimp only
      by_cases hr : reacts st n a = true
      · rw [if_pos hr]
        have hem : emitted c.engine st n a = updateRecords c.engine { st with widgets := MInter.enter st.widgets n a } := by unfold emitted; rw [if_pos hr]
        rw [hem]
        have hne := updateRecords_ne c.engine { st with widgets := MInter.enter st.widgets n a }
        generalize updateRecords c.engine { st with widgets := MInter.enter st.widgets n a } = rs at hne
        obtain ⟨e1, e2, e3⟩ := emit_all rs (if cleared = true then (s.store k (change c.engine st n a)).clearLog k else s.store k (change c.engine st n a))
        refine ⟨fun m => ?_, fun m => ?_, fun u => ?_⟩
        · rw [e1]
          cases cleared with
          | false =>
              rw [if_neg (by decide), s1]
              cases s.calls[m]? with
              | none => rfl
              | some x => simp [logNow, hne, callAfter]
          | true =>
              rw [if_pos rfl]
              unfold Session.clearLog
              dsimp only
              rw [getElem?_modify', s1]
              cases s.calls[m]? with
              | none => rfl
              | some x => by_cases e : k = m <;> simp [logNow, hne, callAfter, e]
        · rw [e2, ← s2 m]
          cases cleared <;> rfl
        · rw [e3, ← s3 u]
          cases cleared <;> rfl
      · rw [if_neg hr]
        have hem : emitted c.engine st n a = [] := by unfold emitted; rw [if_neg hr]
        rw [hem]
        refine ⟨fun m => ?_, s2, s3⟩
        rw [s1]
        cases s.calls[m]? with
        | none => rfl
        | some x => simp [logNow, callAfter]

theorem tick_spec (s : Session A G C D N T H M) (k : Nat) (b : Bool) :
    ∀ m : Nat, (s.tick k b).calls[m]? = (s.calls[m]?).map fun x => if k = m then { x with panel := x.panel.map (Panel.tick b) } else x := by
  intro m
  unfold Session.tick
  dsimp only
  rw [getElem?_modify']

theorem plot_spec (kind : A → Kind) (s : Session A G C D N T H M) (i : Nat) (e : Engine A G (C × D) N T H M) :
    ((∀ p v, s.plotters[i]? = some p → s.users[p.user]? = some v → False) ∧ s.plot kind i e = s) ∨
    ∃ p v, s.plotters[i]? = some p ∧ s.users[p.user]? = some v ∧ (s.plot kind i e).users = s.users ∧
      (∀ m : Nat, (s.plot kind i e).plotters[m]? = (s.plotters[m]?).map fun q => if i = m then
        (plotBody kind v s.calls.length { p with pipeline := some (if p.clone then .clone s.calls.length else .user p.user) } ⟨i, e, v, none, none, []⟩).1 else q) ∧
      (s.plot kind i e).calls = s.calls ++
        [(plotBody kind v s.calls.length { p with pipeline := some (if p.clone then .clone s.calls.length else .user p.user) } ⟨i, e, v, none, none, []⟩).2] := by
  unfold Session.plot
  cases h1 : s.plotters[i]? with
  | none => exact .inl ⟨fun p v h => (by cases h), rfl⟩
  | some p =>
      dsimp only
      cases h2 : s.users[p.user]? with
      | none =>
          refine .inl ⟨fun p' v h => ?_, rfl⟩
          cases h
          rw [h2]
          intro h
          cases h
      | some v =>
          refine .inr ⟨p, v, rfl, h2, rfl, fun m => ?_, rfl⟩
          dsimp only
          rw [getElem?_modify']

/-- What holds in all sessions. -/
structure WF (s : Session A G C D N T H M) : Prop where
  pipe : ∀ (i : Nat) p r, s.plotters[i]? = some p → p.pipeline = some r → ∃ v, s.pipe r = some v
  fig : ∀ (i : Nat) p f, s.plotters[i]? = some p → p.figure = some f → ∃ cf fg, s.calls[f]? = some cf ∧ cf.fig = some fg
  panel : ∀ (k : Nat) c w, s.calls[k]? = some c → c.panel = some w → ∃ p, s.plotters[c.plotter]? = some p ∧ p.pipeline.isSome ∧ p.graph.isSome ∧ p.color.isSome ∧ p.summaries.isSome ∧ p.figure.isSome
  names : ∀ (k : Nat) c w, s.calls[k]? = some c → c.panel = some w → w.observed = w.widgets.map Prod.fst

theorem wf_view (s : Session A G C D N T H M) (h : WF s) (k : Nat) (c : Call A G C D N T H M) (w : Panel A D) (h1 : s.calls[k]? = some c) (h2 : c.panel = some w) : ∃ st, s.view k = some st := by
  obtain ⟨p, h3, h4, h6, h7, h8, h9⟩ := h.panel k c w h1 h2
  obtain ⟨r, h4⟩ := Option.isSome_iff_exists.1 h4
  obtain ⟨g, h6⟩ := Option.isSome_iff_exists.1 h6
  obtain ⟨col, h7⟩ := Option.isSome_iff_exists.1 h7
  obtain ⟨n, h8⟩ := Option.isSome_iff_exists.1 h8
  obtain ⟨f, h9⟩ := Option.isSome_iff_exists.1 h9
  obtain ⟨v, h5⟩ := h.pipe _ p r h3 h4
  obtain ⟨cf, fg, h10, h11⟩ := h.fig _ p f h3 h9
  exact ⟨_, view_eq s k c w p r v g col n f cf fg h1 h2 h3 h4 h5 h6 h7 h8 h9 h10 h11⟩

theorem change_names [DecidableEq A] (e : Engine A G C N T H M) (st : State A G C N T H M) (n : Name) (a : A) :
    (change e st n a).widgets.map Prod.fst = st.widgets.map Prod.fst ∧ (change e st n a).pushed = st.pushed ∧ (change e st n a).observed = st.observed ∧
      (change e st n a).color = st.color ∧ (change e st n a).colored = st.colored := by
  rcases change_eq e st n a with h | h | h
  · rw [h]
    exact ⟨rfl, rfl, rfl, rfl, rfl⟩
  · rw [h]
    exact ⟨enter_names _ _ _, rfl, rfl, rfl, rfl⟩
  · rw [h]
    obtain ⟨-, h2, h3, h4, -, -, h7, h8⟩ := update_frame e { st with widgets := MInter.enter st.widgets n a }
    rw [h2, h3, h4, h7, h8]
    exact ⟨enter_names _ _ _, rfl, rfl, rfl, rfl⟩

theorem enter_pipe [DecidableEq A] (s s' : Session A G C D N T H M) (p : Plotter G C N) (k : Nat) (st : State A G (C × D) N T H M) (lg : Nat → List Record → List Record)
    (h1 : ∀ m : Nat, s'.calls[m]? = (s.calls[m]?).map fun x => { callAfter p k st m x with log := lg m x.log })
    (h3 : ∀ u : Nat, s'.users[u]? = (s.users[u]?).map fun v => if p.pipeline = some (.user u) then st.pipeline else v) (r : Ref) :
    s'.pipe r = (s.pipe r).map fun v => if p.pipeline = some r then st.pipeline else v := by
  cases r with
  | user u => exact h3 u
  | clone m =>
      show (s'.calls[m]?).map Call.copy = ((s.calls[m]?).map Call.copy).map _
      rw [h1]
      cases s.calls[m]? with
      | none => rfl
      | some x => rfl

theorem append_pipe (s s' : Session A G C D N T H M) (c : Call A G C D N T H M) (h1 : s'.calls = s.calls ++ [c]) (h2 : s'.users = s.users) (r : Ref) (v : Val A) (h : s.pipe r = some v) :
    s'.pipe r = some v := by
  cases r with
  | user u => simpa [Session.pipe, h2] using h
  | clone m =>
      simp only [Session.pipe, h1, Option.map_eq_some_iff] at h ⊢
      obtain ⟨x, hx, hv⟩ := h
      exact ⟨x, by rw [List.getElem?_append_left (List.getElem?_eq_some_iff.1 hx).1]; exact hx, hv⟩

theorem getElem?_snoc {α : Type} (l : List α) (x y : α) (m : Nat) (h : (l ++ [x])[m]? = some y) : l[m]? = some y ∨ (m = l.length ∧ x = y) := by
  rcases Nat.lt_trichotomy m l.length with hm | hm | hm
  · rw [List.getElem?_append_left hm] at h
    exact .inl h
  · subst hm
    simp at h
    exact .inr ⟨rfl, h⟩
  · rw [List.getElem?_eq_none (by simp; omega)] at h
    cases h

theorem getElem?_old {α : Type} (l : List α) (x y : α) (m : Nat) (h : l[m]? = some y) : (l ++ [x])[m]? = some y := by
  rw [List.getElem?_append_left (List.getElem?_eq_some_iff.1 h).1]
  exact h

theorem getElem?_new {α : Type} (l : List α) (x : α) : (l ++ [x])[l.length]? = some x := by simp

theorem allWidgets_names (kind : A → Kind) (g : Groups A) : observed kind g = (allWidgets kind g).map Prod.fst := by
  unfold observed allWidgets
  rw [List.map_append, List.map_append, widgets_names, widgets_names, widgets_names]

theorem plot_names (kind : A → Kind) (e : Engine A G C N T H M) (b : Bool) (v : Val A) (st : State A G C N T H M) (h : MInter.plot kind e b v = .ok st) :
    st.observed = st.widgets.map Prod.fst ∧ st.valid = true ∧ st.pipeline = v := by
  obtain ⟨l, g, c, t, n, fig, -, -, -, -, -, rfl⟩ := plot_ok kind e b v st h
  exact ⟨allWidgets_names kind _, rfl, rfl⟩

theorem wf_start (users : List (Val A)) : WF (start users : Session A G C D N T H M) :=
  ⟨fun i p r h => by simp [start] at h, fun i p f h => by simp [start] at h, fun k c w h => by simp [start] at h, fun k c w h => by simp [start] at h⟩

theorem wf_new (s : Session A G C D N T H M) (h : WF s) (u : Nat) (b : Bool) : WF (s.new u b) := by
  have hp : ∀ r, (s.new u b).pipe r = s.pipe r := fun r => by cases r <;> rfl
  refine ⟨fun i p r h1 h2 => ?_, fun i p f h1 h2 => ?_, fun k c w h1 h2 => ?_, fun k c w h1 h2 => h.names k c w h1 h2⟩
  · rw [hp]
    rcases getElem?_snoc _ _ _ _ h1 with h3 | ⟨-, rfl⟩
    · exact h.pipe i p r h3 h2
    · cases h2
  · rcases getElem?_snoc _ _ _ _ h1 with h3 | ⟨-, rfl⟩
    · exact h.fig i p f h3 h2
    · cases h2
  · obtain ⟨p, h3, h4⟩ := h.panel k c w h1 h2
    exact ⟨p, getElem?_old _ _ _ _ h3, h4⟩

theorem wf_tick (s : Session A G C D N T H M) (h : WF s) (k : Nat) (b : Bool) : WF (s.tick k b) := by
  have hc := tick_spec s k b
  have hx : ∀ (m : Nat) c, (s.tick k b).calls[m]? = some c → ∃ x, s.calls[m]? = some x ∧ c.plotter = x.plotter ∧ c.fig = x.fig ∧ c.copy = x.copy ∧
      ∀ w, c.panel = some w → ∃ w', x.panel = some w' ∧ w.observed = w'.observed ∧ w.widgets = w'.widgets := by
    intro m c h1
    rw [hc, Option.map_eq_some_iff] at h1
    obtain ⟨x, hx, rfl⟩ := h1
    refine ⟨x, hx, ?_⟩
    by_cases e : k = m
    · rw [if_pos e]
      refine ⟨rfl, rfl, rfl, fun w hw => ?_⟩
      obtain ⟨w', hw', rfl⟩ := Option.map_eq_some_iff.1 hw
      refine ⟨w', hw', ?_⟩
      unfold Panel.tick
      split <;> exact ⟨rfl, rfl⟩
    · rw [if_neg e]
      exact ⟨rfl, rfl, rfl, fun w hw => ⟨w, hw, rfl, rfl⟩⟩
  have hy : ∀ (m : Nat) x, s.calls[m]? = some x → ∃ c, (s.tick k b).calls[m]? = some c ∧ c.fig = x.fig ∧ c.copy = x.copy := by
    intro m x h1
    rw [hc, h1]
    refine ⟨_, rfl, ?_⟩
    by_cases e : k = m <;> simp [e]
  have hp : ∀ r v, s.pipe r = some v → (s.tick k b).pipe r = some v := by
    intro r v hv
    cases r with
    | user u => exact hv
    | clone m =>
        obtain ⟨x, hx, rfl⟩ := Option.map_eq_some_iff.1 hv
        obtain ⟨c, h1, -, h3⟩ := hy m x hx
        simp only [Session.pipe, h1, Option.map_some, h3]
  refine ⟨fun i p r h1 h2 => ?_, fun i p f h1 h2 => ?_, fun m c w h1 h2 => ?_, fun m c w h1 h2 => ?_⟩
  · obtain ⟨v, hv⟩ := h.pipe i p r h1 h2
    exact ⟨v, hp r v hv⟩
  · obtain ⟨cf, fg, h3, h4⟩ := h.fig i p f h1 h2
    obtain ⟨c, h5, h6, -⟩ := hy f cf h3
    exact ⟨c, fg, h5, h6.trans h4⟩
  · obtain ⟨x, hx1, hx2, -, -, hx3⟩ := hx m c h1
    obtain ⟨w', hw, -⟩ := hx3 w h2
    rw [hx2]
    exact h.panel m x w' hx1 hw
  · obtain ⟨x, hx1, -, -, -, hx3⟩ := hx m c h1
    obtain ⟨w', hw, h3, h4⟩ := hx3 w h2
    rw [h3, h4]
    exact h.names m x w' hx1 hw

theorem wf_plot (kind : A → Kind) (s : Session A G C D N T H M) (h : WF s) (i : Nat) (e : Engine A G (C × D) N T H M) : WF (s.plot kind i e) := by
  rcases plot_spec kind s i e with ⟨-, h0⟩ | ⟨p, v, h1, h2, h3, h4, h5⟩
  · rw [h0]
    exact h
  · have hb := plotBody_cases kind v s.calls.length { p with pipeline := some (if p.clone then .clone s.calls.length else .user p.user) } (⟨i, e, v, none, none, []⟩ : Call A G C D N T H M)
    generalize plotBody kind v s.calls.length { p with pipeline := some (if p.clone then .clone s.calls.length else .user p.user) } (⟨i, e, v, none, none, []⟩ : Call A G C D N T H M) = r at hb h4 h5
    have hcopy : r.2.copy = v := by
      rcases hb with ⟨hb, -⟩ | ⟨st, -, hb⟩ <;> rw [hb]
    have hr1 : r.1.pipeline = some (if p.clone then .clone s.calls.length else .user p.user) := by
      rcases hb with ⟨-, -, -, hb, -⟩ | ⟨st, -, hb⟩
      · exact hb
      · rw [hb]
    have hown : ∃ v, (s.plot kind i e).pipe (if p.clone then .clone s.calls.length else .user p.user) = some v := by
      cases p.clone with
      | false => exact ⟨v, by rw [if_neg (by decide)]; show (s.plot kind i e).users[p.user]? = some v; rw [h3]; exact h2⟩
      | true => exact ⟨v, by rw [if_pos rfl]; show ((s.plot kind i e).calls[s.calls.length]?).map Call.copy = some v; rw [h5, getElem?_new]; exact congrArg some hcopy⟩
    have hplot : ∀ (m : Nat) q, (s.plot kind i e).plotters[m]? = some q → (m = i ∧ q = r.1) ∨ (m ≠ i ∧ s.plotters[m]? = some q) := by
      intro m q hq
      rw [h4, Option.map_eq_some_iff] at hq
      obtain ⟨q', hq', hq⟩ := hq
      by_cases e' : i = m
      · rw [if_pos e'] at hq
        exact .inl ⟨e'.symm, hq.symm⟩
      · rw [if_neg e'] at hq
        exact .inr ⟨fun x => e' x.symm, by rw [hq', hq]⟩
    refine ⟨fun m q r' k1 k2 => ?_, fun m q f k1 k2 => ?_, fun k c w k1 k2 => ?_, fun k c w k1 k2 => ?_⟩
    · rcases hplot m q k1 with ⟨-, rfl⟩ | ⟨-, k1⟩
      · rw [hr1] at k2
        cases k2
        exact hown
      · obtain ⟨v', hv'⟩ := h.pipe m q r' k1 k2
        exact ⟨v', append_pipe s _ _ h5 h3 r' v' hv'⟩
    · rcases hplot m q k1 with ⟨-, rfl⟩ | ⟨-, k1⟩
      · rcases hb with ⟨hb1, -, -, -, hb2, -⟩ | ⟨st, -, hb⟩
        · rw [hb2] at k2
          obtain ⟨cf, fg, h6, h7⟩ := h.fig i p f h1 k2
          exact ⟨cf, fg, by rw [h5]; exact getElem?_old _ _ _ _ h6, h7⟩
        · rw [hb] at k2 h5
          cases k2
          exact ⟨_, st.fig, by rw [h5]; exact getElem?_new _ _, rfl⟩
      · obtain ⟨cf, fg, h6, h7⟩ := h.fig m q f k1 k2
        exact ⟨cf, fg, by rw [h5]; exact getElem?_old _ _ _ _ h6, h7⟩
    · have hi : (s.plot kind i e).plotters[i]? = some r.1 := by rw [h4, h1, Option.map_some, if_pos rfl]
      rw [h5] at k1
      rcases getElem?_snoc _ _ _ _ k1 with k1 | ⟨-, rfl⟩
      · obtain ⟨q, h6, h7, h8, h9, h10, h11⟩ := h.panel k c w k1 k2
        by_cases e' : c.plotter = i
        · rw [e', h1] at h6
          cases h6
          refine ⟨r.1, by rw [e']; exact hi, by rw [hr1]; rfl, ?_⟩
          rcases hb with ⟨-, -, -, -, b1, b2, b3, b4, -⟩ | ⟨st, -, hb⟩
          · exact ⟨b2 h8, b3 h9, b4 h10, by rw [b1]; exact h11⟩
          · rw [hb]
            exact ⟨rfl, rfl, rfl, rfl⟩
        · refine ⟨q, ?_, h7, h8, h9, h10, h11⟩
          rw [h4, h6, Option.map_some, if_neg fun x => e' x.symm]
      · rcases hb with ⟨hb1, -⟩ | ⟨st, -, hb⟩
        · rw [hb1] at k2
          cases k2
        · rw [hb] at hi ⊢
          exact ⟨_, hi, rfl, rfl, rfl, rfl, rfl⟩
    · rw [h5] at k1
      rcases getElem?_snoc _ _ _ _ k1 with k1 | ⟨-, rfl⟩
      · exact h.names k c w k1 k2
      · rcases hb with ⟨hb1, -⟩ | ⟨st, hst, hb⟩
        · rw [hb1] at k2
          cases k2
        · rw [hb] at k2
          cases k2
          exact (plot_names kind e true v st hst).1

theorem wf_enter [DecidableEq A] (s : Session A G C D N T H M) (h : WF s) (k : Nat) (n : Name) (a : A) (cleared : Bool) : WF (s.enter k n a cleared) := by
  rcases enter_spec s k n a cleared with ⟨-, h0⟩ | ⟨c, p, st, h1, h2, h3, h4, h5, h6⟩
  · rw [h0]
    exact h
  · obtain ⟨c', w, p', r, v, col, f, cf, a1, a2, a3, a4, a5, a6, a7, a8, a9, a10, a11, a12⟩ := view_some s k st h3
    rw [h1] at a1
    cases a1
    rw [h2] at a3
    cases a3
    have hp := enter_pipe s (s.enter k n a cleared) p k (change c.engine st n a) _ h4 h6
    generalize hs : s.enter k n a cleared = s' at h4 h5 h6 hp
    have hpl : ∀ (m : Nat) q, s'.plotters[m]? = some q → ∃ q', s.plotters[m]? = some q' ∧ q.pipeline = q'.pipeline ∧ q.figure = q'.figure := by
      intro m q hq
      rw [h5, Option.map_eq_some_iff] at hq
      obtain ⟨q', hq', rfl⟩ := hq
      refine ⟨q', hq', ?_⟩
      split <;> exact ⟨rfl, rfl⟩
    refine ⟨fun m q r' k1 k2 => ?_, fun m q f' k1 k2 => ?_, fun m x w' k1 k2 => ?_, fun m x w' k1 k2 => ?_⟩
    · obtain ⟨q', b1, b2, -⟩ := hpl m q k1
      obtain ⟨v', hv'⟩ := h.pipe m q' r' b1 (b2 ▸ k2)
      rw [hp, hv']
      exact ⟨_, rfl⟩
    · obtain ⟨q', b1, -, b2⟩ := hpl m q k1
      obtain ⟨cf', fg, b3, b4⟩ := h.fig m q' f' b1 (b2 ▸ k2)
      refine ⟨_, if p.figure = some f' then (change c.engine st n a).fig else fg, by rw [h4, b3]; rfl, ?_⟩
      simp only [callAfter]
      split
      · rfl
      · exact b4
    · rw [h4, Option.map_eq_some_iff] at k1
      obtain ⟨x', hx', rfl⟩ := k1
      obtain ⟨w'', hw''⟩ : ∃ w'', x'.panel = some w'' := by
        simp only [callAfter] at k2
        split at k2
        · obtain ⟨w'', hw, -⟩ := Option.map_eq_some_iff.1 k2
          exact ⟨w'', hw⟩
        · exact ⟨_, k2⟩
      obtain ⟨q, b1, b2, b3, b4, b5, b6⟩ := h.panel m x' w'' hx' hw''
      refine ⟨_, by show s'.plotters[x'.plotter]? = _; rw [h5, b1]; rfl, ?_⟩
      split
      · exact ⟨b2, rfl, b4, rfl, b6⟩
      · exact ⟨b2, b3, b4, b5, b6⟩
    · rw [h4, Option.map_eq_some_iff] at k1
      obtain ⟨x', hx', rfl⟩ := k1
      simp only [callAfter] at k2
      split at k2
      · rename_i e
        subst e
        rw [h1] at hx'
        cases hx'
        rw [a2] at k2
        cases k2
        show w.observed = (change c.engine st n a).widgets.map Prod.fst
        rw [(change_names c.engine st n a).1, a12]
        exact h.names k c w h1 a2
      · exact h.names m x' w' hx' k2

theorem wf_step [DecidableEq A] (kind : A → Kind) (s : Session A G C D N T H M) (h : WF s) (ev : Event A G C D N T H M) : WF (step kind s ev) := by
  cases ev with
  | new u b => exact wf_new s h u b
  | plot i e => exact wf_plot kind s h i e
  | enter k n a cl => exact wf_enter s h k n a cl
  | tick k b => exact wf_tick s h k b

theorem wf_run [DecidableEq A] (kind : A → Kind) (h : List (Event A G C D N T H M)) : ∀ (s : Session A G C D N T H M), WF s → WF (run kind s h) := by
  induction h with
  | nil => exact fun s hs => hs
  | cons ev h ih => exact fun s hs => ih _ (wf_step kind s hs ev)

theorem newGraph_user (e : Engine A G C N T H M) (st : State A G C N T H M) (b : Bool) (w : Val A) :
    newGraph e { st with clone := b, user := w } = { newGraph e st with clone := b, user := w } := by
  unfold newGraph
  dsimp only
  cases e.fit st.pipeline with
  | error => rfl
  | ok g =>
      dsimp only
      cases e.graphData st.color g with
      | error => rfl
      | ok tn =>
          dsimp only
          unfold draw drawTraces
          dsimp only
          by_cases hc : st.colored = true
          · rw [if_pos hc, if_pos hc]
            cases e.labels tn.2 with
            | error => rfl
            | ok x =>
                dsimp only
                cases makeMenu e st.color st.colored tn.2 tn.1 st.fig.menu <;> rfl
          · rw [if_neg hc, if_neg hc]
            cases makeMenu e st.color st.colored tn.2 tn.1 st.fig.menu <;> rfl

theorem change_user [DecidableEq A] (e : Engine A G C N T H M) (st : State A G C N T H M) (n : Name) (a : A) (b : Bool) (w : Val A) :
    ∃ x, change e { st with clone := b, user := w } n a = { change e st n a with clone := b, user := x } := by
  unfold change
  dsimp only
  cases widgetValue st.widgets n with
  | none => exact ⟨w, rfl⟩
  | some old =>
      dsimp only
      by_cases h : a = old
      · rw [if_pos h, if_pos h]
        exact ⟨w, rfl⟩
      · rw [if_neg h, if_neg h]
        by_cases h' : n ∈ st.observed
        · rw [if_pos h', if_pos h']
          unfold update
          dsimp only
          cases push (MInter.enter st.widgets n a) st.pushed st.pipeline with
          | mk v o =>
              cases o with
              | some x => exact ⟨_, rfl⟩
              | none =>
                  refine ⟨if b then w else v, ?_⟩
                  dsimp only
                  exact newGraph_user e ({ st with widgets := MInter.enter st.widgets n a }.withPipeline v) b (if b then w else v)
        · rw [if_neg h', if_neg h']
          exact ⟨w, rfl⟩

/-- Call `k` is the only one of plotter `i`, whose pipeline `r` no other plotter changes; `st` is the state of the plot. -/
structure Iso (s : Session A G C D N T H M) (i k : Nat) (r : Ref) (e : Engine A G (C × D) N T H M) (st : State A G (C × D) N T H M) : Prop where
  call : ∃ c w, s.calls[k]? = some c ∧ c.plotter = i ∧ c.engine = e ∧ c.fig = some st.fig ∧ c.panel = some w ∧ w.pushed = st.pushed ∧ w.observed = st.observed ∧ w.widgets = st.widgets ∧
    w.columns = st.color.2 ∧ w.colored = st.colored ∧ w.valid = st.valid
  plotter : ∃ p, s.plotters[i]? = some p ∧ p.pipeline = some r ∧ p.graph = some st.graph ∧ p.color = some st.color.1 ∧ p.summaries = some st.summaries ∧ p.figure = some k
  pipe : s.pipe r = some st.pipeline
  only : ∀ (j : Nat) c, s.calls[j]? = some c → c.plotter = i → j = k
  others : ∀ (j : Nat) p, j ≠ i → s.plotters[j]? = some p → p.pipeline ≠ some r ∧ p.figure ≠ some k ∧ (r = .user p.user → p.clone = true)
  ref : ∀ m, r = .clone m → m = k

theorem iso_step [DecidableEq A] (kind : A → Kind) (s : Session A G C D N T H M) (i k : Nat) (r : Ref) (e : Engine A G (C × D) N T H M) (st : State A G (C × D) N T H M)
    (h : Iso s i k r e st) (ev : Event A G C D N T H M) (h1 : ¬ IsPlotOf i ev) (h2 : ∀ u b, ev = .new u b → r = .user u → b = true) :
    Iso (step kind s ev) i k r e (changes e st (enteredIn k [ev])) := by
  obtain ⟨c, w, c1, c2, c3, c4, c5, c6, c7, c8, c9, c10, c11⟩ := h.call
  obtain ⟨p, p1, p2, p3, p4, p5, p6⟩ := h.plotter
  have hk : k < s.calls.length := (List.getElem?_eq_some_iff.1 c1).1
  have hi : i < s.plotters.length := (List.getElem?_eq_some_iff.1 p1).1
  cases ev with
  | new u b =>
      refine ⟨⟨c, w, c1, c2, c3, c4, c5, c6, c7, c8, c9, c10, c11⟩, ⟨p, getElem?_old _ _ _ _ p1, p2, p3, p4, p5, p6⟩, ?_, h.only, fun j q hj hq => ?_, h.ref⟩
      · have : (s.new u b).pipe r = s.pipe r := by cases r <;> rfl
        exact this.trans h.pipe
      · rcases getElem?_snoc _ _ _ _ hq with hq | ⟨-, rfl⟩
        · exact h.others j q hj hq
        · exact ⟨fun x => (by cases x), fun x => (by cases x), h2 u b rfl⟩
  | plot j e' =>
      have hj : j ≠ i := h1
      rcases plot_spec kind s j e' with ⟨-, h0⟩ | ⟨q, v, q1, q2, q3, q4, q5⟩
      · show Iso (s.plot kind j e') i k r e st
        rw [h0]
        exact h
      · have hb := plotBody_cases kind v s.calls.length { q with pipeline := some (if q.clone then .clone s.calls.length else .user q.user) } (⟨j, e', v, none, none, []⟩ : Call A G C D N T H M)
        generalize plotBody kind v s.calls.length { q with pipeline := some (if q.clone then .clone s.calls.length else .user q.user) } (⟨j, e', v, none, none, []⟩ : Call A G C D N T H M) = rr at hb q4 q5
        have hcp : rr.2.plotter = j := by
          rcases hb with ⟨hb, -⟩ | ⟨st, -, hb⟩ <;> rw [hb]
        have hr : rr.1.user = q.user ∧ rr.1.clone = q.clone ∧ rr.1.pipeline = some (if q.clone then .clone s.calls.length else .user q.user) ∧
            (rr.1.figure = q.figure ∨ rr.1.figure = some s.calls.length) := by
          rcases hb with ⟨-, b1, b2, b3, b4, -⟩ | ⟨st, -, hb⟩
          · exact ⟨b1, b2, b3, .inl b4⟩
          · rw [hb]
            exact ⟨rfl, rfl, rfl, .inr rfl⟩
        obtain ⟨o1, o2, o3⟩ := h.others j q hj q1
        show Iso (s.plot kind j e') i k r e st
        refine ⟨⟨c, w, by rw [q5]; exact getElem?_old _ _ _ _ c1, c2, c3, c4, c5, c6, c7, c8, c9, c10, c11⟩, ⟨p, ?_, p2, p3, p4, p5, p6⟩, append_pipe s _ _ q5 q3 r _ h.pipe, ?_, ?_, h.ref⟩
        · rw [q4, p1, Option.map_some, if_neg hj]
        · intro m x hx hxi
          rw [q5] at hx
          rcases getElem?_snoc _ _ _ _ hx with hx | ⟨-, rfl⟩
          · exact h.only m x hx hxi
          · exact absurd (hcp.symm.trans hxi) hj
        · intro m x hm hx
          rw [q4, Option.map_eq_some_iff] at hx
          obtain ⟨x', hx', hx⟩ := hx
          by_cases e : j = m
          · rw [if_pos e] at hx
            subst hx
            obtain ⟨r1, r2, r3, r4⟩ := hr
            refine ⟨?_, ?_, by rw [r1, r2]; exact o3⟩
            · rw [r3]
              intro he
              have he := Option.some.inj he
              cases hcl : q.clone with
              | true =>
                  rw [hcl, if_pos rfl] at he
                  have := h.ref _ he.symm
                  omega
              | false =>
                  rw [hcl, if_neg (by decide)] at he
                  rw [o3 he.symm] at hcl
                  cases hcl
            · rcases r4 with r4 | r4
              · rw [r4]
                exact o2
              · rw [r4]
                intro he
                cases he
                omega
          · rw [if_neg e] at hx
            subst hx
            exact h.others m x' hm hx'
  | tick j b =>
      have hc := tick_spec s j b
      show Iso (s.tick j b) i k r e st
      refine ⟨?_, ⟨p, p1, p2, p3, p4, p5, p6⟩, ?_, fun m x hx hxi => ?_, h.others, h.ref⟩
      · by_cases e : j = k
        · refine ⟨{ c with panel := c.panel.map (Panel.tick b) }, Panel.tick b w, by rw [hc, c1, Option.map_some, if_pos e], c2, c3, c4, ?_, ?_⟩
          · rw [c5]
            rfl
          · unfold Panel.tick
            split <;> exact ⟨c6, c7, c8, c9, c10, c11⟩
        · exact ⟨c, w, by rw [hc, c1, Option.map_some, if_neg e], c2, c3, c4, c5, c6, c7, c8, c9, c10, c11⟩
      · have : (s.tick j b).pipe r = s.pipe r := by
          cases r with
          | user u => rfl
          | clone m =>
              show ((s.tick j b).calls[m]?).map Call.copy = (s.calls[m]?).map Call.copy
              rw [hc]
              cases s.calls[m]? with
              | none => rfl
              | some x => by_cases e : j = m <;> simp [e]
        rw [this]
        exact h.pipe
      · rw [hc, Option.map_eq_some_iff] at hx
        obtain ⟨x', hx', rfl⟩ := hx
        refine h.only m x' hx' ?_
        rw [← hxi]
        split <;> rfl
  | enter j n a cl =>
      have key : ∀ st', Iso (s.enter j n a cl) i k r e st' → st' = changes e st (enteredIn k [(.enter j n a cl : Event A G C D N T H M)]) →
          Iso (step kind s (.enter j n a cl)) i k r e (changes e st (enteredIn k [.enter j n a cl])) := fun st' h1 h2 => h2 ▸ h1
      by_cases hj : j = k
      · subst hj
        refine key (change e st n a) ?_ (by simp [enteredIn, changes])
        have hv := view_eq s j c w p r st.pipeline st.graph st.color.1 st.summaries j c st.fig c1 c5 (c2 ▸ p1) p2 h.pipe p3 p4 p5 p6 c1 c4
        rcases enter_spec s j n a cl with ⟨h0, -⟩ | ⟨c', p', st', h1, h2, h3, h4, h5, h6⟩
        · rw [hv] at h0
          cases h0
        · rw [c1] at h1
          cases h1
          rw [c2, p1] at h2
          cases h2
          rw [hv] at h3
          have hst' : st' = { st with clone := true, user := st.pipeline } := by
            rw [← Option.some.inj h3, c6, c7, c8, c9, c10, c11]
          obtain ⟨x, hx⟩ := change_user e st n a true st.pipeline
          rw [← hst', ← c3] at hx
          have hp := enter_pipe s (s.enter j n a cl) p j (change c.engine st' n a) _ h4 h6
          obtain ⟨-, k2, k3, k4, k5⟩ := change_names c.engine st n a
          rw [hx] at h4 h5 h6 hp
          rw [← c3]
          generalize hs : s.enter j n a cl = s' at h4 h5 h6 hp
          have hk1 := (h4 j).trans (congrArg _ c1)
          rw [Option.map_some] at hk1
          have hk2 := (h5 i).trans (congrArg _ p1)
          rw [Option.map_some, if_pos c2] at hk2
          refine ⟨⟨_, Panel.update (change c.engine st n a).widgets (change c.engine st n a).valid w, hk1, c2, rfl, ?_, by simp only [callAfter]; rw [c5]; simp, ?_⟩, ⟨_, hk2, ?_⟩, ?_, ?_, ?_, h.ref⟩
          · simp only [callAfter]
            rw [if_pos p6]
          · exact ⟨c6.trans k2.symm, c7.trans k3.symm, rfl, c9.trans (congrArg Prod.snd k4.symm), c10.trans k5.symm, rfl⟩
          · exact ⟨p2, rfl, p4.trans (congrArg (fun x => some x.1) k4.symm), rfl, p6⟩
          · rw [hp, h.pipe, Option.map_some, if_pos p2]
          · intro m x hx hxi
            rw [h4, Option.map_eq_some_iff] at hx
            obtain ⟨x', hx', rfl⟩ := hx
            exact h.only m x' hx' hxi
          · intro m x hm hx
            rw [h5, Option.map_eq_some_iff] at hx
            obtain ⟨x', hx', rfl⟩ := hx
            rw [if_neg fun e => hm (e.symm.trans c2)]
            exact h.others m x' hm hx'
      · refine key st ?_ (by simp [enteredIn, changes, hj])
        rcases enter_spec s j n a cl with ⟨-, h0⟩ | ⟨c', p', st', h1, h2, h3, h4, h5, h6⟩
        · rw [h0]
          exact h
        · have hne : c'.plotter ≠ i := fun x => hj (h.only j c' h1 x)
          obtain ⟨o1, o2, o3⟩ := h.others c'.plotter p' hne h2
          have hp := enter_pipe s (s.enter j n a cl) p' j (change c'.engine st' n a) _ h4 h6
          generalize hs : s.enter j n a cl = s' at h4 h5 h6 hp
          have hk1 := (h4 k).trans (congrArg _ c1)
          rw [Option.map_some] at hk1
          refine ⟨⟨_, w, hk1, c2, c3, ?_, ?_, c6, c7, c8, c9, c10, c11⟩, ⟨p, ?_, p2, p3, p4, p5, p6⟩, ?_, ?_, ?_, h.ref⟩
          · simp only [callAfter]
            rw [if_neg o2]
            exact c4
          · simp only [callAfter]
            rw [if_neg hj]
            exact c5
          · rw [h5, p1, Option.map_some, if_neg hne]
          · rw [hp, h.pipe, Option.map_some, if_neg o1]
          · intro m x hx hxi
            rw [h4, Option.map_eq_some_iff] at hx
            obtain ⟨x', hx', rfl⟩ := hx
            exact h.only m x' hx' hxi
          · intro m x hm hx
            rw [h5, Option.map_eq_some_iff] at hx
            obtain ⟨x', hx', rfl⟩ := hx
            have := h.others m x' hm hx'
            split
            · exact this
            · exact this

/-- What holds after a history. -/
structure Hist (s : Session A G C D N T H M) (h : List (Event A G C D N T H M)) : Prop where
  made : ∀ i : Nat, (s.plotters[i]?).map (fun p => (p.user, p.clone)) = (created h)[i]?
  ref : ∀ (i : Nat) p r, s.plotters[i]? = some p → p.pipeline = some r → (r = .user p.user ∧ p.clone = false) ∨ (p.clone = true ∧ ∃ m, m < s.calls.length ∧ r = .clone m)
  calls : ∀ (k : Nat) c, s.calls[k]? = some c → ∃ ev ∈ h, IsPlotOf c.plotter ev
  own : ∀ (i : Nat) p f c, s.plotters[i]? = some p → p.figure = some f → s.calls[f]? = some c → c.plotter = i

theorem length_of_getElem? {α : Type} (l l' : List α) (g : Nat → α → α) (h : ∀ m : Nat, l'[m]? = (l[m]?).map (g m)) : l'.length = l.length := by
  have h1 : ∀ m : Nat, m < l'.length ↔ m < l.length := by
    intro m
    have := h m
    rw [← not_iff_not, Nat.not_lt, Nat.not_lt, ← List.getElem?_eq_none_iff, ← List.getElem?_eq_none_iff, this, Option.map_eq_none_iff]
  exact Nat.le_antisymm (Nat.le_of_not_lt fun x => absurd ((h1 _).1 x) (Nat.lt_irrefl _)) (Nat.le_of_not_lt fun x => absurd ((h1 _).2 x) (Nat.lt_irrefl _))

theorem hist_step [DecidableEq A] (kind : A → Kind) (s : Session A G C D N T H M) (hw : WF s) (h : List (Event A G C D N T H M)) (hs : Hist s h) (ev : Event A G C D N T H M) :
    Hist (step kind s ev) (h ++ [ev]) := by
  have hcalls : ∀ (k : Nat) c, s.calls[k]? = some c → ∃ ev' ∈ h ++ [ev], IsPlotOf c.plotter ev' := by
    intro k c hc
    obtain ⟨ev', h1, h2⟩ := hs.calls k c hc
    exact ⟨ev', List.mem_append_left _ h1, h2⟩
  cases ev with
  | new u b =>
      have hcr : created (h ++ [(.new u b : Event A G C D N T H M)]) = created h ++ [(u, b)] := by simp [created]
      have hl : s.plotters.length = (created h).length := by
        have : (s.plotters.map fun p => (p.user, p.clone)) = created h := by
          apply List.ext_getElem?
          intro i
          rw [List.getElem?_map]
          exact hs.made i
        rw [← this, List.length_map]
      refine ⟨fun i => ?_, fun i p r h1 h2 => ?_, hcalls, fun i p f c h1 h2 h3 => ?_⟩
      · rw [hcr]
        show ((s.plotters ++ [_])[i]?).map _ = _
        rcases Nat.lt_trichotomy i s.plotters.length with hi | hi | hi
        · rw [List.getElem?_append_left hi, List.getElem?_append_left (hl ▸ hi)]
          exact hs.made i
        · subst hi
          rw [getElem?_new, hl, getElem?_new]
          rfl
        · rw [List.getElem?_eq_none (by simp; omega), List.getElem?_eq_none (by simp; omega)]
          rfl
      · rcases getElem?_snoc _ _ _ _ h1 with h1 | ⟨-, rfl⟩
        · exact hs.ref i p r h1 h2
        · cases h2
      · rcases getElem?_snoc _ _ _ _ h1 with h1 | ⟨-, rfl⟩
        · exact hs.own i p f c h1 h2 h3
        · cases h2
  | plot j e =>
      have hcr : created (h ++ [(.plot j e : Event A G C D N T H M)]) = created h := by simp [created]
      rcases plot_spec kind s j e with ⟨-, h0⟩ | ⟨q, v, q1, q2, q3, q4, q5⟩
      · have : step kind s (.plot j e) = s := h0
        rw [this]
        exact ⟨fun i => by rw [hcr]; exact hs.made i, hs.ref, hcalls, hs.own⟩
      · have hb := plotBody_cases kind v s.calls.length { q with pipeline := some (if q.clone then .clone s.calls.length else .user q.user) } (⟨j, e, v, none, none, []⟩ : Call A G C D N T H M)
        generalize plotBody kind v s.calls.length { q with pipeline := some (if q.clone then .clone s.calls.length else .user q.user) } (⟨j, e, v, none, none, []⟩ : Call A G C D N T H M) = rr at hb q4 q5
        have hcp : rr.2.plotter = j := by
          rcases hb with ⟨hb, -⟩ | ⟨st, -, hb⟩ <;> rw [hb]
        have hr : rr.1.user = q.user ∧ rr.1.clone = q.clone ∧ rr.1.pipeline = some (if q.clone then .clone s.calls.length else .user q.user) ∧
            (rr.1.figure = q.figure ∨ rr.1.figure = some s.calls.length) := by
          rcases hb with ⟨-, b1, b2, b3, b4, -⟩ | ⟨st, -, hb⟩
          · exact ⟨b1, b2, b3, .inl b4⟩
          · rw [hb]
            exact ⟨rfl, rfl, rfl, .inr rfl⟩
        obtain ⟨r1, r2, r3, r4⟩ := hr
        have hpl : ∀ (m : Nat) x, (s.plot kind j e).plotters[m]? = some x → (j = m ∧ x = rr.1) ∨ s.plotters[m]? = some x := by
          intro m x hx
          rw [q4, Option.map_eq_some_iff] at hx
          obtain ⟨x', hx', hx⟩ := hx
          by_cases e : j = m
          · rw [if_pos e] at hx
            exact .inl ⟨e, hx.symm⟩
          · rw [if_neg e] at hx
            exact .inr (hx ▸ hx')
        refine ⟨fun i => ?_, fun i p r h1 h2 => ?_, fun k c h1 => ?_, fun i p f c h1 h2 h3 => ?_⟩
        · rw [hcr, ← hs.made i]
          show ((s.plot kind j e).plotters[i]?).map _ = _
          rw [q4]
          by_cases e : j = i
          · subst e
            rw [q1]
            simp [r1, r2]
          · cases s.plotters[i]? <;> simp [e]
        · show _ ∨ (_ ∧ ∃ m, m < (s.plot kind j e).calls.length ∧ _)
          rw [q5, List.length_append]
          rcases hpl i p h1 with ⟨rfl, rfl⟩ | h1
          · rw [r3] at h2
            cases h2
            rw [r1, r2]
            cases q.clone with
            | false => exact .inl ⟨rfl, rfl⟩
            | true => exact .inr ⟨rfl, s.calls.length, by simp, rfl⟩
          · rcases hs.ref i p r h1 h2 with h4 | ⟨h4, m, h5, h6⟩
            · exact .inl h4
            · exact .inr ⟨h4, m, by omega, h6⟩
        · have h1 : (s.plot kind j e).calls[k]? = some c := h1
          rw [q5] at h1
          rcases getElem?_snoc _ _ _ _ h1 with h1 | ⟨-, rfl⟩
          · exact hcalls k c h1
          · exact ⟨_, List.mem_append_right _ (List.mem_singleton.2 rfl), hcp.symm⟩
        · have h3 : (s.plot kind j e).calls[f]? = some c := h3
          rw [q5] at h3
          rcases hpl i p h1 with ⟨rfl, rfl⟩ | h1
          · rcases r4 with r4 | r4
            · rw [r4] at h2
              rcases getElem?_snoc _ _ _ _ h3 with h3 | ⟨-, rfl⟩
              · exact hs.own j q f c q1 h2 h3
              · exact hcp
            · rw [r4] at h2
              cases h2
              rw [getElem?_new] at h3
              cases h3
              exact hcp
          · rcases getElem?_snoc _ _ _ _ h3 with h3 | ⟨hf, -⟩
            · exact hs.own i p f c h1 h2 h3
            · obtain ⟨cf, fg, h4, -⟩ := hw.fig i p f h1 h2
              exact absurd (List.getElem?_eq_some_iff.1 h4).1 (by omega)
  | tick j b =>
      have hcr : created (h ++ [(.tick j b : Event A G C D N T H M)]) = created h := by simp [created]
      have hc := tick_spec s j b
      have hl := length_of_getElem? s.calls (s.tick j b).calls _ hc
      have hx : ∀ (m : Nat) c, (s.tick j b).calls[m]? = some c → ∃ x, s.calls[m]? = some x ∧ c.plotter = x.plotter := by
        intro m c h1
        rw [hc, Option.map_eq_some_iff] at h1
        obtain ⟨x, hx, rfl⟩ := h1
        refine ⟨x, hx, ?_⟩
        split <;> rfl
      refine ⟨fun i => by rw [hcr]; exact hs.made i, fun i p r h1 h2 => ?_, fun k c h1 => ?_, fun i p f c h1 h2 h3 => ?_⟩
      · show _ ∨ (_ ∧ ∃ m, m < (s.tick j b).calls.length ∧ _)
        rw [hl]
        exact hs.ref i p r h1 h2
      · obtain ⟨x, h2, h3⟩ := hx k c h1
        rw [h3]
        exact hcalls k x h2
      · obtain ⟨x, h4, h5⟩ := hx f c h3
        rw [h5]
        exact hs.own i p f x h1 h2 h4
  | enter k n a cl =>
      have hcr : created (h ++ [(.enter k n a cl : Event A G C D N T H M)]) = created h := by simp [created]
      rcases enter_spec s k n a cl with ⟨-, h0⟩ | ⟨c, p, st, h1, h2, h3, h4, h5, h6⟩
      · have : step kind s (.enter k n a cl) = s := h0
        rw [this]
        exact ⟨fun i => by rw [hcr]; exact hs.made i, hs.ref, hcalls, hs.own⟩
      · have hl := length_of_getElem? s.calls (s.enter k n a cl).calls _ h4
        have hx : ∀ (m : Nat) c, (s.enter k n a cl).calls[m]? = some c → ∃ x, s.calls[m]? = some x ∧ c.plotter = x.plotter := by
          intro m c h1
          rw [h4, Option.map_eq_some_iff] at h1
          obtain ⟨x, hx, rfl⟩ := h1
          exact ⟨x, hx, rfl⟩
        have hy : ∀ (m : Nat) c, (s.enter k n a cl).plotters[m]? = some c → ∃ x, s.plotters[m]? = some x ∧ c.pipeline = x.pipeline ∧ c.user = x.user ∧ c.clone = x.clone ∧ c.figure = x.figure := by
          intro m c h1
          rw [h5, Option.map_eq_some_iff] at h1
          obtain ⟨x, hx, rfl⟩ := h1
          refine ⟨x, hx, ?_⟩
          split <;> exact ⟨rfl, rfl, rfl, rfl⟩
        refine ⟨fun i => ?_, fun i p r k1 k2 => ?_, fun k c k1 => ?_, fun i p f c k1 k2 k3 => ?_⟩
        · rw [hcr, ← hs.made i]
          show ((s.enter k n a cl).plotters[i]?).map _ = _
          rw [h5]
          cases s.plotters[i]? with
          | none => rfl
          | some x => by_cases e : c.plotter = i <;> simp [e]
        · show _ ∨ (_ ∧ ∃ m, m < (s.enter k n a cl).calls.length ∧ _)
          rw [hl]
          obtain ⟨x, b1, b2, b3, b4, b5⟩ := hy i p k1
          rw [b3, b4]
          exact hs.ref i x r b1 (b2 ▸ k2)
        · obtain ⟨x, b1, b2⟩ := hx k c k1
          rw [b2]
          exact hcalls k x b1
        · obtain ⟨x, b1, b2⟩ := hx f c k3
          obtain ⟨y, d1, d2, d3, d4, d5⟩ := hy i p k1
          rw [b2]
          exact hs.own i y f x d1 (d5 ▸ k2) b1

theorem run_append [DecidableEq A] (kind : A → Kind) (s : Session A G C D N T H M) (h h' : List (Event A G C D N T H M)) : run kind s (h ++ h') = run kind (run kind s h) h' := by
  unfold run
  rw [List.foldl_append]

theorem hist_run [DecidableEq A] (kind : A → Kind) (users : List (Val A)) (h : List (Event A G C D N T H M)) : WF (run kind (start users) h) ∧ Hist (run kind (start users) h) h := by
  induction h using List.reverseRecOn with
  | nil => exact ⟨wf_start users, fun i => by simp [start, created, run], fun i p r h => by simp [start, run] at h, fun k c h => by simp [start, run] at h, fun i p f c h => by simp [start, run] at h⟩
  | append_singleton h ev ih =>
      rw [run_append]
      exact ⟨wf_step kind _ ih.1 ev, hist_step kind _ ih.1 h ih.2 ev⟩

theorem iso_run [DecidableEq A] (kind : A → Kind) (i k : Nat) (r : Ref) (e : Engine A G (C × D) N T H M) (h : List (Event A G C D N T H M)) :
    ∀ (s : Session A G C D N T H M) (st : State A G (C × D) N T H M), Iso s i k r e st → (∀ ev ∈ h, ¬ IsPlotOf i ev) → (∀ u b, (.new u b : Event A G C D N T H M) ∈ h → r = .user u → b = true) →
      Iso (run kind s h) i k r e (changes e st (enteredIn k h)) := by
  induction h with
  | nil => exact fun s st h _ _ => h
  | cons ev h ih =>
      intro s st h1 h2 h3
      have hs := iso_step kind s i k r e st h1 ev (h2 ev (List.mem_cons_self ..)) fun u b he => h3 u b (he ▸ List.mem_cons_self ..)
      have := ih _ _ hs (fun ev' hev => h2 ev' (List.mem_cons_of_mem _ hev)) fun u b hb => h3 u b (List.mem_cons_of_mem _ hb)
      have hch : changes e st (enteredIn k (ev :: h)) = changes e (changes e st (enteredIn k [ev])) (enteredIn k h) := by
        have : enteredIn k (ev :: h) = enteredIn k [ev] ++ enteredIn k h := by
          unfold enteredIn
          rw [← List.filterMap_append]
          rfl
        rw [this]
        unfold changes
        rw [List.foldl_append]
      rw [hch]
      exact this

theorem mem_created (h : List (Event A G C D N T H M)) (u : Nat) (b : Bool) (hm : (.new u b : Event A G C D N T H M) ∈ h) : (u, b) ∈ created h := by
  unfold created
  rw [List.mem_filterMap]
  exact ⟨_, hm, rfl⟩

end Gtda.Props.MSession

namespace Gtda.Props

open Py Gtda.MParams Gtda.MInter Gtda.MSession Gtda.Spec.MSession Gtda.Props.MSession

section Session

variable {A G C D N T H M : Type}

/-- **C133.** A plot is not affected by the other plots of a session if its plotter is plotted once and no other plotter works on the same pipeline: whatever happens before, between and after, its
parameters, graph, figure, summaries, widgets and validity are those of a plot which is alone, after the values entered in its own widgets. -/
theorem C133_independent [DecidableEq A] (kind : A → Kind) (users : List (Val A)) (before after : List (Event A G C D N T H M)) (i : Nat) (e : Engine A G (C × D) N T H M) (u : Nat) (clone : Bool)
    (v : Val A) (st : State A G (C × D) N T H M) (hi : (created before)[i]? = some (u, clone)) (hv : (run kind (start users) before : Session A G C D N T H M).users[u]? = some v)
    (honce : ∀ ev ∈ before ++ after, ¬ IsPlotOf i ev)
    (hshared : clone = false → ∀ j : Nat, j ≠ i → (created (before ++ after))[j]? ≠ some (u, false))
    (hplot : MInter.plot kind e true v = .ok st) :
    let s := run kind (start users) (before ++ .plot i e :: after)
    let k := (run kind (start users) before : Session A G C D N T H M).calls.length
    let alone := changes e st (enteredIn k after)
    s.pipeline_ i = .ok alone.pipeline ∧ s.graph_ i = .ok alone.graph ∧ s.color_features_ i = .ok alone.color.1 ∧ s.node_summaries_ i = .ok alone.summaries ∧ s.figure_ i = .ok alone.fig ∧
      s.figureOf k = some alone.fig ∧ s.widgets k = some alone.widgets ∧ s.valid k = some alone.valid := by
  intro s k alone
  obtain ⟨hw, hh⟩ := hist_run (G := G) (C := C) (D := D) (N := N) (T := T) (H := H) (M := M) kind users before
  generalize hs0 : run kind (start users) before = s0 at hv hw hh
  have hk : k = s0.calls.length := by rw [← hs0]
  have hmade := hh.made i
  rw [hi, Option.map_eq_some_iff] at hmade
  obtain ⟨p, p1, p2⟩ := hmade
  have pu : p.user = u := congrArg Prod.fst p2
  have pc : p.clone = clone := congrArg Prod.snd p2
  let r : Ref := if clone then .clone k else .user u
  have hr : ∀ j q, j ≠ i → s0.plotters[j]? = some q → q.pipeline ≠ some r ∧ q.figure ≠ some k ∧ (r = .user q.user → q.clone = true) := by
    intro j q hj hq
    refine ⟨fun hqr => ?_, fun hqf => ?_, fun hqu => ?_⟩
    · rcases hh.ref j q r hq hqr with ⟨h1, h2⟩ | ⟨h1, m, h2, h3⟩
      · cases clone with
        | true =>
            have h1 : Ref.clone k = Ref.user q.user := h1
            cases h1
        | false =>
            have h1 : Ref.user u = Ref.user q.user := h1
            cases h1
            refine hshared rfl j hj ?_
            have h3 := hh.made j
            rw [hq, Option.map_some, h2] at h3
            have : created (before ++ after) = created before ++ created after := by unfold created; rw [List.filterMap_append]
            rw [this, List.getElem?_append_left (List.getElem?_eq_some_iff.1 h3.symm).1, ← h3]
      · cases clone with
        | true =>
            have h3 : Ref.clone k = Ref.clone m := h3
            cases h3
            omega
        | false =>
            have h3 : Ref.user u = Ref.clone m := h3
            cases h3
    · obtain ⟨cf, fg, h1, -⟩ := hw.fig j q k hq hqf
      have := (List.getElem?_eq_some_iff.1 h1).1
      omega
    · cases clone with
      | true =>
          have hqu : Ref.clone k = Ref.user q.user := hqu
          cases hqu
      | false =>
          have hqu : Ref.user u = Ref.user q.user := hqu
          cases hqu
          cases hcl : q.clone with
          | true => rfl
          | false =>
              refine absurd ?_ (hshared rfl j hj)
              have h3 := hh.made j
              rw [hq, Option.map_some, hcl] at h3
              have : created (before ++ after) = created before ++ created after := by unfold created; rw [List.filterMap_append]
              rw [this, List.getElem?_append_left (List.getElem?_eq_some_iff.1 h3.symm).1, ← h3]
  have hiso : Iso (s0.plot kind i e) i k r e st := by
    rcases plot_spec kind s0 i e with ⟨h0, -⟩ | ⟨q, v', q1, q2, q3, q4, q5⟩
    · exact (h0 p v p1 (pu ▸ hv)).elim
    · rw [p1] at q1
      cases q1
      rw [pu, hv] at q2
      cases q2
      rcases plotBody_cases kind v s0.calls.length { p with pipeline := some (if p.clone then .clone s0.calls.length else .user p.user) } (⟨i, e, v, none, none, []⟩ : Call A G C D N T H M) with
        ⟨-, -, -, -, -, -, -, -, hb⟩ | ⟨st', hst, hb⟩
      · exact absurd hplot (hb st)
      · dsimp only at hst
        rw [hplot] at hst
        cases hst
        rw [hb] at q4 q5
        have hlast := congrArg (fun l => l[k]?) q5
        dsimp only at hlast
        rw [hk, getElem?_new, ← hk] at hlast
        have hmine := q4 i
        rw [p1, Option.map_some, if_pos rfl] at hmine
        refine ⟨⟨_, _, hlast, rfl, rfl, rfl, rfl, rfl, rfl, rfl, rfl, rfl, rfl⟩, ⟨_, hmine, ?_, rfl, rfl, rfl, ?_⟩, ?_, fun j c hc hci => ?_, fun j q hj hq => ?_, fun m hm => ?_⟩
        · show some _ = some r
          rw [pc, pu, ← hk]
        · exact congrArg some hk.symm
        · rw [(plot_names kind e true v st hplot).2.2]
          show (s0.plot kind i e).pipe (if clone then .clone k else .user u) = some v
          cases clone with
          | true => rw [if_pos rfl]; show ((s0.plot kind i e).calls[k]?).map Call.copy = some v; rw [hlast]; rfl
          | false => rw [if_neg (by decide)]; show (s0.plot kind i e).users[u]? = some v; rw [q3]; exact hv
        · rw [q5] at hc
          rcases getElem?_snoc _ _ _ _ hc with hc | ⟨hj, -⟩
          · obtain ⟨ev, h1, h2⟩ := hh.calls j c hc
            rw [hci] at h2
            exact absurd h2 (honce ev (List.mem_append_left _ h1))
          · exact hj.trans hk.symm
        · rw [q4, Option.map_eq_some_iff] at hq
          obtain ⟨q', hq', hq⟩ := hq
          rw [if_neg fun x => hj x.symm] at hq
          subst hq
          exact hr j q' hj hq'
        · have hm : (if clone then Ref.clone k else Ref.user u) = Ref.clone m := hm
          cases clone with
          | true => rw [if_pos rfl] at hm; cases hm; rfl
          | false => rw [if_neg (by decide)] at hm; cases hm
  have hfin := iso_run kind i k r e after _ st hiso (fun ev hev => honce ev (List.mem_append_right _ hev)) (by
    intro u' b hm hru
    cases hcl : clone with
    | true =>
        have : r = .clone k := by show (if clone then Ref.clone k else Ref.user u) = _; rw [hcl]; rfl
        rw [this] at hru
        cases hru
    | false =>
        have : r = .user u := by show (if clone then Ref.clone k else Ref.user u) = _; rw [hcl]; rfl
        rw [this] at hru
        cases hru
        cases b with
        | true => rfl
        | false =>
            have hx : created (before ++ after) = created before ++ created after := by unfold created; rw [List.filterMap_append]
            obtain ⟨n, hn1, hn2⟩ := List.getElem_of_mem (mem_created after u false hm)
            refine absurd ?_ (hshared hcl ((created before).length + n) ?_)
            · rw [hx, List.getElem?_append_right (by omega), Nat.add_sub_cancel_left, ← hn2]
              exact List.getElem?_eq_getElem hn1
            · have := (List.getElem?_eq_some_iff.1 hi).1
              omega)
  have hs : s = run kind (s0.plot kind i e) after := by
    show run kind (start users) (before ++ .plot i e :: after) = _
    rw [run_append, hs0]
    rfl
  rw [← hs] at hfin
  obtain ⟨c, w, c1, c2, c3, c4, c5, c6, c7, c8, c9, c10, c11⟩ := hfin.call
  obtain ⟨q, q1, q2, q3, q4, q5, q6⟩ := hfin.plotter
  have hattr : ∀ {α : Type} (f : Plotter G C N → Option α) x, f q = some x → s.attr i f = .ok x := by
    intro α f x hx
    unfold Session.attr
    rw [q1]
    dsimp only
    rw [hx]
  refine ⟨hattr _ _ ?_, hattr _ _ q3, hattr _ _ q4, hattr _ _ q5, hattr _ _ ?_, ?_, ?_, ?_⟩
  · rw [q2]
    exact hfin.pipe
  · rw [q6, Option.bind_some, c1, Option.bind_some]
    exact c4
  · unfold Session.figureOf
    rw [c1]
    exact c4
  · unfold Session.widgets
    rw [c1, Option.bind_some, c5, Option.map_some, c8]
  · unfold Session.valid
    rw [c1, Option.bind_some, c5, Option.map_some, c11]

/-- **C133.** If all plotters work on clones, the pipelines of the caller keep their parameters, whatever is entered in the plots. -/
theorem C133_clones [DecidableEq A] (kind : A → Kind) (users : List (Val A)) (h : List (Event A G C D N T H M)) (hc : ∀ x ∈ created h, x.2 = true) :
    (run kind (start users) h : Session A G C D N T H M).users = users := by
  induction h using List.reverseRecOn with
  | nil => rfl
  | append_singleton h ev ih =>
      have hcr : created (h ++ [ev]) = created h ++ created [ev] := by unfold created; rw [List.filterMap_append]
      have ih := ih fun x hx => hc x (by rw [hcr]; exact List.mem_append_left _ hx)
      obtain ⟨hw, hh⟩ := hist_run (G := G) (C := C) (D := D) (N := N) (T := T) (H := H) (M := M) kind users h
      rw [run_append]
      generalize run kind (start users) h = s at ih hw hh
      show (step kind s ev).users = users
      cases ev with
      | new u b => exact ih
      | tick k b => exact ih
      | plot i e =>
          rcases plot_spec kind s i e with ⟨-, h0⟩ | ⟨q, v', q1, q2, q3, q4, q5⟩
          · show (s.plot kind i e).users = users
            rw [h0]
            exact ih
          · exact q3.trans ih
      | enter k n a cl =>
          show (s.enter k n a cl).users = users
          rcases enter_spec s k n a cl with ⟨-, h0⟩ | ⟨c, p, st, h1, h2, h3, h4, h5, h6⟩
          · rw [h0]
            exact ih
          · rw [← ih]
            apply List.ext_getElem?
            intro u
            rw [h6]
            have : p.pipeline ≠ some (.user u) := by
              intro hp
              rcases hh.ref _ p _ h2 hp with ⟨-, h7⟩ | ⟨-, m, -, h8⟩
              · have h8 := hh.made c.plotter
                rw [h2, Option.map_some, h7] at h8
                have := hc _ (by rw [hcr]; exact List.mem_append_left _ (List.mem_of_getElem? h8.symm))
                cases this
              · cases h8
            cases s.users[u]? with
            | none => rfl
            | some v => simp [this]

/-- **C133.** Plotters made from the same pipeline without cloning always have the same parameters in `pipeline_`, which are those of the caller's pipeline. -/
theorem C133_shared_pipeline [DecidableEq A] (kind : A → Kind) (users : List (Val A)) (h : List (Event A G C D N T H M)) (i u : Nat) (v : Val A)
    (hi : (created h)[i]? = some (u, false)) (hp : (run kind (start users) h : Session A G C D N T H M).pipeline_ i = .ok v) :
    (run kind (start users) h : Session A G C D N T H M).users[u]? = some v := by
  obtain ⟨hw, hh⟩ := hist_run (G := G) (C := C) (D := D) (N := N) (T := T) (H := H) (M := M) kind users h
  generalize run kind (start users) h = s at hp hw hh
  have hm := hh.made i
  rw [hi, Option.map_eq_some_iff] at hm
  obtain ⟨p, p1, p2⟩ := hm
  have p3 : p.user = u := congrArg Prod.fst p2
  have p4 : p.clone = false := congrArg Prod.snd p2
  unfold Session.pipeline_ Session.attr at hp
  rw [p1] at hp
  dsimp only at hp
  cases hr : p.pipeline with
  | none => rw [hr] at hp; cases hp
  | some r =>
      rw [hr, Option.bind_some] at hp
      rcases hh.ref i p r p1 hr with ⟨h1, -⟩ | ⟨h1, -⟩
      · rw [h1, p3] at hp
        have h2 : s.pipe (.user u) = s.users[u]? := rfl
        rw [h2] at hp
        cases hx : s.users[u]? with
        | none => rw [hx] at hp; cases hp
        | some w => rw [hx] at hp; cases hp; rfl
      · rw [p4] at h1
        cases h1

/-- **C133.** After another successful `plot` of the same plotter, the figure of an earlier call never changes again, whatever is entered in any widget. -/
theorem C133_replaced [DecidableEq A] (kind : A → Kind) (users : List (Val A)) (before after : List (Event A G C D N T H M)) (k : Nat) (c : Call A G C D N T H M)
    (e : Engine A G (C × D) N T H M) (hk : (run kind (start users) before : Session A G C D N T H M).calls[k]? = some c)
    (hplot : (run kind (start users) (before ++ [.plot c.plotter e])).valid (run kind (start users) before : Session A G C D N T H M).calls.length = some true) :
    (run kind (start users) (before ++ .plot c.plotter e :: after)).figureOf k = (run kind (start users) before : Session A G C D N T H M).figureOf k := by
  obtain ⟨hw, hh⟩ := hist_run (G := G) (C := C) (D := D) (N := N) (T := T) (H := H) (M := M) kind users before
  have hrun : ∀ h, run kind (start users) (before ++ .plot c.plotter e :: h) = run kind ((run kind (start users) before).plot kind c.plotter e) h := by
    intro h
    rw [run_append]
    rfl
  rw [hrun] at hplot
  rw [hrun]
  generalize run kind (start users) before = s at hk hplot hw hh
  have hplot : (s.plot kind c.plotter e).valid s.calls.length = some true := hplot
  -- no plotter has this figure any more
  have dead : (∀ (i : Nat) p, (s.plot kind c.plotter e).plotters[i]? = some p → p.figure ≠ some k) ∧ k < (s.plot kind c.plotter e).calls.length ∧
      (s.plot kind c.plotter e).figureOf k = s.figureOf k := by
    have hkl := (List.getElem?_eq_some_iff.1 hk).1
    rcases plot_spec kind s c.plotter e with ⟨-, h0⟩ | ⟨q, v', q1, q2, q3, q4, q5⟩
    · rw [h0] at hplot
      unfold Session.valid at hplot
      rw [List.getElem?_eq_none (Nat.le_refl _)] at hplot
      cases hplot
    · have hfig : (s.plot kind c.plotter e).figureOf k = s.figureOf k := by
        unfold Session.figureOf
        rw [q5, List.getElem?_append_left hkl]
      have hlen : k < (s.plot kind c.plotter e).calls.length := by
        rw [q5, List.length_append]
        omega
      refine ⟨fun i p hp hf => ?_, hlen, hfig⟩
      rw [q4, Option.map_eq_some_iff] at hp
      obtain ⟨p', hp', hp⟩ := hp
      by_cases ei : c.plotter = i
      · rw [if_pos ei] at hp
        rcases plotBody_cases kind v' s.calls.length { q with pipeline := some (if q.clone then .clone s.calls.length else .user q.user) } (⟨c.plotter, e, v', none, none, []⟩ : Call A G C D N T H M) with
          ⟨hb, -⟩ | ⟨st', hst, hb⟩
        · unfold Session.valid at hplot
          rw [q5, getElem?_new, hb] at hplot
          cases hplot
        · rw [hb] at hp
          rw [← hp] at hf
          cases hf
          omega
      · rw [if_neg ei] at hp
        subst hp
        exact ei (hh.own i p' k c hp' hf hk)
  obtain ⟨d1, d2, d3⟩ := dead
  rw [← d3]
  generalize s.plot kind c.plotter e = s' at d1 d2
  clear hrun hplot hk hw hh d3
  induction after generalizing s' with
  | nil => rfl
  | cons ev h ih =>
      have hstep : (∀ (i : Nat) p, (step kind s' ev).plotters[i]? = some p → p.figure ≠ some k) ∧ k < (step kind s' ev).calls.length ∧ (step kind s' ev).figureOf k = s'.figureOf k := by
        cases ev with
        | new u b =>
            refine ⟨fun i p hp hf => ?_, d2, rfl⟩
            rcases getElem?_snoc _ _ _ _ hp with hp | ⟨-, rfl⟩
            · exact d1 i p hp hf
            · cases hf
        | plot i e' =>
            show (∀ (j : Nat) p, (s'.plot kind i e').plotters[j]? = some p → p.figure ≠ some k) ∧ k < (s'.plot kind i e').calls.length ∧ (s'.plot kind i e').figureOf k = s'.figureOf k
            rcases plot_spec kind s' i e' with ⟨-, h0⟩ | ⟨q, v', q1, q2, q3, q4, q5⟩
            · rw [h0]
              exact ⟨d1, d2, rfl⟩
            · refine ⟨fun j p hp hf => ?_, by rw [q5, List.length_append]; omega, by unfold Session.figureOf; rw [q5, List.getElem?_append_left d2]⟩
              rw [q4, Option.map_eq_some_iff] at hp
              obtain ⟨p', hp', hp⟩ := hp
              by_cases ei : i = j
              · rw [if_pos ei] at hp
                rcases plotBody_cases kind v' s'.calls.length { q with pipeline := some (if q.clone then .clone s'.calls.length else .user q.user) } (⟨i, e', v', none, none, []⟩ : Call A G C D N T H M) with
                  ⟨-, -, -, -, hb, -⟩ | ⟨st', hst, hb⟩
                · rw [← hp, hb] at hf
                  exact d1 i q q1 hf
                · rw [hb] at hp
                  rw [← hp] at hf
                  cases hf
                  omega
              · rw [if_neg ei] at hp
                subst hp
                exact d1 j p' hp' hf
        | tick j b =>
            have hc := tick_spec s' j b
            refine ⟨d1, ?_, ?_⟩
            · show k < (s'.tick j b).calls.length
              rw [length_of_getElem? s'.calls (s'.tick j b).calls _ hc]
              exact d2
            · show ((s'.tick j b).calls[k]?).bind Call.fig = (s'.calls[k]?).bind Call.fig
              rw [hc]
              cases s'.calls[k]? with
              | none => rfl
              | some x => by_cases e : j = k <;> simp [e]
        | enter j n a cl =>
            show (∀ (i : Nat) p, (s'.enter j n a cl).plotters[i]? = some p → p.figure ≠ some k) ∧ k < (s'.enter j n a cl).calls.length ∧ (s'.enter j n a cl).figureOf k = s'.figureOf k
            rcases enter_spec s' j n a cl with ⟨-, h0⟩ | ⟨x, p, st, h1, h2, h3, h4, h5, h6⟩
            · rw [h0]
              exact ⟨d1, d2, rfl⟩
            · refine ⟨fun i q hq hf => ?_, ?_, ?_⟩
              · rw [h5, Option.map_eq_some_iff] at hq
                obtain ⟨q', hq', rfl⟩ := hq
                refine d1 i q' hq' ?_
                rw [← hf]
                split <;> rfl
              · rw [length_of_getElem? s'.calls (s'.enter j n a cl).calls _ h4]
                exact d2
              · unfold Session.figureOf
                rw [h4]
                cases s'.calls[k]? with
                | none => rfl
                | some y => simp [callAfter, d1 _ p h2]
      obtain ⟨e1, e2, e3⟩ := hstep
      exact (ih _ e1 e2).trans e3

/-- **C133.** `plot_interactive_mapper_graph` is `plot` of a new plotter. -/
theorem C133_function [DecidableEq A] (kind : A → Kind) (s : Session A G C D N T H M) (u : Nat) (clone : Bool) (e : Engine A G (C × D) N T H M) :
    s.plotInteractive kind u clone e = run kind s [.new u clone, .plot s.plotters.length e] := rfl

end Session

end Gtda.Props
