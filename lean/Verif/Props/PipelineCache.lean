import Verif.Spec.PipelineCache
import Mathlib.Tactic.Common

/-!
# C117: caching the transformers of a pipeline
-/

set_option autoImplicit false
set_option linter.unusedSectionVars false

namespace Gtda.Props.PipelineCache

open Py Gtda.Pipeline Gtda.PipelineCache Gtda.Spec.PipelineCache

variable {C V Y P S : Type} [DecidableEq C] [DecidableEq V] [DecidableEq Y] [DecidableEq P] [DecidableEq S] [Inhabited S]

/-! ### Small facts -/

theorem resolve_est (M : C → Est V Y P S) (h : List S) (s : CStep C) (c : C) (ref : Nat) (hk : s.kind = .est c ref) : resolve M h s = ⟨s.name, .est (M c), deref h ref⟩ := by
  unfold resolve
  rw [hk]

theorem resolve_congr (M : C → Est V Y P S) (h h' : List S) (s : CStep C) (hd : ∀ c ref, s.kind = .est c ref → deref h ref = deref h' ref) : resolve M h s = resolve M h' s := by
  unfold resolve
  cases hk : s.kind with
  | none => rfl
  | passthrough => rfl
  | est c ref =>
    dsimp only
    rw [hd c ref hk]

theorem mem_objects (steps : List (CStep C)) (s : CStep C) (hs : s ∈ steps) (c : C) (ref : Nat) (hk : s.kind = .est c ref) : ref ∈ objects steps :=
  List.mem_filterMap.2 ⟨s, hs, by rw [hk]⟩

theorem resolve_map_congr (M : C → Est V Y P S) (h h' : List S) (steps : List (CStep C)) (hd : ∀ r ∈ objects steps, deref h r = deref h' r) :
    steps.map (resolve M h) = steps.map (resolve M h') :=
  List.map_congr_left fun s hs => resolve_congr M h h' s fun c ref hk => hd ref (mem_objects steps s hs c ref hk)

theorem deref_append (h t : List S) (r : Nat) (hr : r < h.length) : deref (h ++ t) r = deref h r := by
  unfold deref
  rw [List.getD_eq_getElem?_getD, List.getD_eq_getElem?_getD, List.getElem?_append_left hr]

theorem deref_set_ne (h : List S) (r r' : Nat) (s : S) (hr : r' ≠ r) : deref (h.set r s) r' = deref h r' := by
  unfold deref
  rw [List.getD_eq_getElem?_getD, List.getD_eq_getElem?_getD, List.getElem?_set_ne (Ne.symm hr)]

theorem deref_set_self (h : List S) (r : Nat) (s : S) (hr : r < h.length) : deref (h.set r s) r = s := by
  unfold deref
  rw [List.getD_eq_getElem?_getD, List.getElem?_set_self hr]
  rfl

theorem thenCall_same {α : Type} (a b : S × PyM Unit) (h : Same a b) (f : S → PyM α) : Same (thenCall a f) (thenCall b f) := by
  obtain ⟨a1, a2⟩ := a
  obtain ⟨b1, b2⟩ := b
  obtain ⟨h1, h2⟩ := h
  dsimp only at h1 h2
  subst h1
  cases a2 with
  | error e => exact ⟨rfl, fun r hr => by cases hr⟩
  | ok u =>
    have := h2 u rfl
    subst this
    exact ⟨rfl, fun _ _ => rfl⟩

theorem fitOne_same (M : C → Est V Y P S) (clone : C → S → S) (c : C) (h : Forgets M clone c) (s : S) (X : V) (y : Option Y) (prm : Dict P) :
    Same (fitOne (M c) (clone c s) X y prm) (fitOne (M c) s X y prm) := by
  obtain ⟨h1, h2, h3⟩ := h s X y prm
  unfold fitOne
  split
  · unfold fitTransformResampleOne
    cases hf : (M c).fitTransformResample with
    | some f => exact h3 f hf
    | none => exact thenCall_same _ _ h1 _
  · have key : Same (fitTransformOne (M c) (clone c s) X y prm) (fitTransformOne (M c) s X y prm) := by
      unfold fitTransformOne
      cases hf : (M c).fitTransform with
      | some f => exact h2 f hf
      | none => exact thenCall_same _ _ h1 _
    obtain ⟨k1, k2⟩ := key
    rcases hq : fitTransformOne (M c) s X y prm with ⟨q1, q2⟩
    rcases hp : fitTransformOne (M c) (clone c s) X y prm with ⟨p1, p2⟩
    rw [hq, hp] at k1 k2
    dsimp only at k1 k2
    subst k1
    cases p2 with
    | error e => exact ⟨rfl, fun r hr => by cases hr⟩
    | ok x => exact ⟨rfl, fun r hr => k2 x rfl⟩

/-! ### The cache holds what the calls would return -/

/-- Every entry of the cache is the result of the call it stands for. -/
def Sound (M : C → Est V Y P S) (w : World C V Y P S) : Prop :=
  ∀ e ∈ w.cache, fitOne (M e.1.cls) e.1.state e.1.X e.1.y e.1.params = (e.2.state, .ok (e.2.X, e.2.y))

theorem sound_lookup (M : C → Est V Y P S) (w : World C V Y P S) (h : Sound M w) (k : Key C V Y P S) (r : Stored V Y S) (hl : lookup w.cache k = some r) :
    fitOne (M k.cls) k.state k.X k.y k.params = (r.state, .ok (r.X, r.y)) := by
  unfold lookup at hl
  obtain ⟨e, he, rfl⟩ := Option.map_eq_some_iff.1 hl
  have hk : e.1 = k := by simpa using List.find?_some he
  subst hk
  exact h e (List.mem_of_find?_eq_some he)

/-- Stored results stay. -/
def Extends (c c' : List (Key C V Y P S × Stored V Y S)) : Prop := ∀ k r, lookup c k = some r → lookup c' k = some r

theorem lookup_append (c t : List (Key C V Y P S × Stored V Y S)) : Extends c (c ++ t) := by
  intro k r h
  unfold lookup at h ⊢
  obtain ⟨e, he, rfl⟩ := Option.map_eq_some_iff.1 h
  rw [List.find?_append, he]
  rfl

theorem lookup_new (c : List (Key C V Y P S × Stored V Y S)) (k : Key C V Y P S) (r : Stored V Y S) (h : lookup c k = none) : lookup (c ++ [(k, r)]) k = some r := by
  unfold lookup at h ⊢
  rw [Option.map_eq_none_iff] at h
  rw [List.find?_append, h]
  simp

/-- What one fit does to the world, whatever `memory` is. -/
theorem stepFit_inv (M : C → Est V Y P S) (clone : C → S → S) (memory : Bool) (w : World C V Y P S) (hw : Sound M w) (c : C) (ref : Nat) (X : V) (y : Option Y) (prm : Dict P) :
    Sound M (stepFit M clone memory w c ref X y prm).1 ∧ Extends w.cache (stepFit M clone memory w c ref X y prm).1.cache ∧
      w.heap.length ≤ (stepFit M clone memory w c ref X y prm).1.heap.length := by
  cases memory with
  | false => exact ⟨hw, fun _ _ h => h, by simp [stepFit]⟩
  | true =>
    unfold stepFit
    rw [if_pos rfl]
    dsimp only
    cases hl : lookup w.cache ⟨resamples (M c) y, c, clone c (deref w.heap ref), X, y, prm⟩ with
    | some r => exact ⟨hw, fun _ _ h => h, by simp⟩
    | none =>
      dsimp only
      rcases hf : fitOne (M c) (clone c (deref w.heap ref)) X y prm with ⟨s', e | r⟩
      · exact ⟨hw, fun _ _ h => h, by simp⟩
      · refine ⟨?_, lookup_append _ _, by simp⟩
        intro e he
        rcases List.mem_append.1 he with he | he
        · exact hw e he
        · rw [List.mem_singleton] at he
          subst he
          exact hf

theorem loop_inv (M : C → Est V Y P S) (clone : C → S → S) (memory : Bool) (fps : List (Name × Dict P)) (steps : List (CStep C)) :
    ∀ (w : World C V Y P S) (X : V) (y : Option Y), Sound M w →
      Sound M (loop M clone memory fps w steps X y).1 ∧ Extends w.cache (loop M clone memory fps w steps X y).1.cache ∧ w.heap.length ≤ (loop M clone memory fps w steps X y).1.heap.length := by
  induction steps with
  | nil => intro w X y hw; exact ⟨hw, fun _ _ h => h, le_refl _⟩
  | cons s t ih =>
    intro w X y hw
    unfold loop
    cases hk : s.kind with
    | none => exact ih w X y hw
    | passthrough => exact ih w X y hw
    | est c ref =>
      dsimp only
      cases hg : Dict.get fps s.name with
      | error e => exact ⟨hw, fun _ _ h => h, le_refl _⟩
      | ok prm =>
        dsimp only
        obtain ⟨i1, i2, i3⟩ := stepFit_inv M clone memory w hw c ref X y prm
        rcases hf : stepFit M clone memory w c ref X y prm with ⟨w', e | r⟩
        · rw [hf] at i1 i2 i3
          exact ⟨i1, i2, i3⟩
        · rw [hf] at i1 i2 i3
          obtain ⟨j1, j2, j3⟩ := ih w' r.2.1 r.2.2 i1
          exact ⟨j1, fun k r h => j2 k r (i2 k r h), le_trans i3 j3⟩

theorem call_inv (M : C → Est V Y P S) (clone : C → S → S) (memory : Bool) (m : Method) (w : World C V Y P S) (hw : Sound M w) (steps : List (CStep C)) (X : V) (y : Option Y) (prm : Dict P) :
    Sound M (call M clone memory m w steps X y prm).1 ∧ Extends w.cache (call M clone memory m w steps X y prm).1.cache ∧ w.heap.length ≤ (call M clone memory m w steps X y prm).1.heap.length := by
  unfold call
  split
  · exact ⟨hw, fun _ _ h => h, le_refl _⟩
  split
  · exact ⟨hw, fun _ _ h => h, le_refl _⟩
  rename_i fps _
  have hi := loop_inv M clone memory fps steps.dropLast w X y hw
  split
  · rename_i w' front err hl
    rw [hl] at hi
    exact hi
  · rename_i w' front r hl
    rw [hl] at hi
    split
    · exact hi
    split
    · split
      · exact hi
      · exact ⟨hi.1, hi.2.1, by simpa using hi.2.2⟩
    · exact hi

theorem run_inv (M : C → Est V Y P S) (clone : C → S → S) (ops : List (Op C V Y P S)) :
    ∀ w, Sound M w → Sound M (run M clone w ops) ∧ Extends w.cache (run M clone w ops).cache ∧ w.heap.length ≤ (run M clone w ops).heap.length := by
  induction ops with
  | nil => intro w hw; exact ⟨hw, fun _ _ h => h, le_refl _⟩
  | cons o t ih =>
    intro w hw
    have h1 : Sound M (step M clone w o) ∧ Extends w.cache (step M clone w o).cache ∧ w.heap.length ≤ (step M clone w o).heap.length := by
      cases o with
      | new s => exact ⟨hw, fun _ _ h => h, by simp [step]⟩
      | change ref s => exact ⟨hw, fun _ _ h => h, by simp [step]⟩
      | fit memory m steps X y prm => exact call_inv M clone memory m w hw steps X y prm
    obtain ⟨j1, j2, j3⟩ := ih _ h1.1
    exact ⟨j1, fun k r h => j2 k r (h1.2.1 k r h), le_trans h1.2.2 j3⟩

/-! ### Without a cache -/

theorem stepFit_off (M : C → Est V Y P S) (clone : C → S → S) (w : World C V Y P S) (c : C) (ref : Nat) (X : V) (y : Option Y) (prm : Dict P) :
    stepFit M clone false w c ref X y prm =
      ({ w with heap := w.heap.set ref (fitOne (M c) (deref w.heap ref) X y prm).1, trace := w.trace ++ [⟨resamples (M c) y, c, deref w.heap ref, X, y, prm⟩] },
        match (fitOne (M c) (deref w.heap ref) X y prm).2 with
        | .error e => .error e
        | .ok r => .ok (ref, r.1, r.2)) := by
  unfold stepFit
  rw [if_neg (by simp)]
  dsimp only
  rcases fitOne (M c) (deref w.heap ref) X y prm with ⟨s', e | r⟩ <;> rfl

theorem loop_off (M : C → Est V Y P S) (clone : C → S → S) (fps : List (Name × Dict P)) (steps : List (CStep C)) :
    ∀ (w : World C V Y P S) (X : V) (y : Option Y), Exist w steps → (objects steps).Nodup →
      (loop M clone false fps w steps X y).2.1 = steps ∧ (loop M clone false fps w steps X y).2.2 = (fitLoop fps (own M w steps) X y).2 ∧
        own M (loop M clone false fps w steps X y).1 steps = (fitLoop fps (own M w steps) X y).1 ∧
        (loop M clone false fps w steps X y).1.heap.length = w.heap.length ∧ ∀ r, r ∉ objects steps → deref (loop M clone false fps w steps X y).1.heap r = deref w.heap r := by
  induction steps with
  | nil => intro w X y _ _; exact ⟨rfl, rfl, rfl, rfl, fun _ _ => rfl⟩
  | cons s t ih =>
    intro w X y he hn
    have hs : ∀ h : List S, List.map (resolve M h) (s :: t) = resolve M h s :: List.map (resolve M h) t := fun _ => rfl
    unfold loop
    cases hk : s.kind with
    | none =>
      have ho : objects (s :: t) = objects t := by simp [objects, hk]
      obtain ⟨i1, i2, i3, i4, i5⟩ := ih w X y (by unfold Exist at he ⊢; rw [ho] at he; exact he) (by rw [ho] at hn; exact hn)
      have hr : ∀ h : List S, resolve M h s = ⟨s.name, .none, default⟩ := fun h => by unfold resolve; rw [hk]
      dsimp only
      unfold own at i2 i3 ⊢
      rw [hs, hs, hr, hr, fitLoop]
      exact ⟨by rw [i1], i2, by rw [i3], i4, by rw [ho]; exact i5⟩
    | passthrough =>
      have ho : objects (s :: t) = objects t := by simp [objects, hk]
      obtain ⟨i1, i2, i3, i4, i5⟩ := ih w X y (by unfold Exist at he ⊢; rw [ho] at he; exact he) (by rw [ho] at hn; exact hn)
      have hr : ∀ h : List S, resolve M h s = ⟨s.name, .passthrough, default⟩ := fun h => by unfold resolve; rw [hk]
      dsimp only
      unfold own at i2 i3 ⊢
      rw [hs, hs, hr, hr, fitLoop]
      exact ⟨by rw [i1], i2, by rw [i3], i4, by rw [ho]; exact i5⟩
    | est c ref =>
      have ho : objects (s :: t) = ref :: objects t := by simp [objects, hk]
      have hr := fun h => resolve_est M h s c ref hk
      rw [ho] at hn
      obtain ⟨hn1, hn2⟩ := List.nodup_cons.1 hn
      have hlt : ref < w.heap.length := he ref (by rw [ho]; exact List.mem_cons_self)
      dsimp only
      unfold own
      rw [hs, hs, hr, hr, fitLoop]
      dsimp only
      cases hg : Dict.get fps s.name with
      | error e =>
        refine ⟨rfl, rfl, ?_, rfl, fun _ _ => rfl⟩
        dsimp only
      | ok prm =>
        dsimp only
        have hw1 := stepFit_off M clone w c ref X y prm
        generalize hW : ({ w with heap := w.heap.set ref (fitOne (M c) (deref w.heap ref) X y prm).1, trace := w.trace ++ [⟨resamples (M c) y, c, deref w.heap ref, X, y, prm⟩] } : World C V Y P S) = w1 at hw1
        have hheap : w1.heap = w.heap.set ref (fitOne (M c) (deref w.heap ref) X y prm).1 := by rw [← hW]
        have hown : List.map (resolve M w1.heap) t = List.map (resolve M w.heap) t := by
          rw [hheap]
          exact resolve_map_congr M _ _ t fun r hr => deref_set_ne _ _ _ _ (by intro h; rw [h] at hr; exact hn1 hr)
        have hself : deref w1.heap ref = (fitOne (M c) (deref w.heap ref) X y prm).1 := by rw [hheap, deref_set_self _ _ _ hlt]
        have hother : ∀ q, q ≠ ref → (deref w1.heap q = deref w.heap q) := fun q hq => by rw [hheap, deref_set_ne _ _ _ _ hq]
        have hlen : w1.heap.length = w.heap.length := by rw [hheap, List.length_set]
        rcases hf : fitOne (M c) (deref w.heap ref) X y prm with ⟨s', e | r⟩
        · rw [hf] at hw1 hself
          rw [hw1]
          refine ⟨rfl, rfl, ?_, hlen, fun q hq => hother q (by rintro rfl; exact hq (by rw [ho]; exact List.mem_cons_self))⟩
          change (⟨s.name, .est (M c), deref w1.heap ref⟩ : Step V Y P S) :: List.map (resolve M w1.heap) t = _
          rw [hself, hown]
        · rw [hf] at hw1 hself
          rw [hw1]
          obtain ⟨i1, i2, i3, i4, i5⟩ := ih w1 r.1 r.2 (by
            intro q hq
            rw [hlen]
            exact he q (by rw [ho]; exact List.mem_cons_of_mem _ hq)) hn2
          unfold own at i2 i3
          rw [hown] at i2 i3
          refine ⟨?_, i2, ?_, i4.trans hlen, ?_⟩
          · change (⟨s.name, .est c ref⟩ : CStep C) :: (loop M clone false fps w1 t r.1 r.2).2.1 = _
            rw [i1, ← hk]
          · change (⟨s.name, .est (M c), deref (loop M clone false fps w1 t r.1 r.2).1.heap ref⟩ : Step V Y P S) :: List.map (resolve M (loop M clone false fps w1 t r.1 r.2).1.heap) t = _
            rw [i5 ref hn1, hself, i3]
          · intro q hq
            rw [ho] at hq
            exact (i5 q fun h => hq (List.mem_cons_of_mem _ h)).trans (hother q (by rintro rfl; exact hq List.mem_cons_self))

/-! ### With a cache -/

theorem stepFit_on (M : C → Est V Y P S) (clone : C → S → S) (w : World C V Y P S) (hw : Sound M w) (c : C) (hc : Forgets M clone c) (ref : Nat) (X : V) (y : Option Y) (prm : Dict P) :
    (∀ e, (fitOne (M c) (deref w.heap ref) X y prm).2 = .error e → (stepFit M clone true w c ref X y prm).2 = .error e) ∧
      (∀ r, (fitOne (M c) (deref w.heap ref) X y prm).2 = .ok r → ∃ a, (stepFit M clone true w c ref X y prm).2 = .ok (a, r.1, r.2) ∧ w.heap.length ≤ a ∧
        a < (stepFit M clone true w c ref X y prm).1.heap.length ∧ deref (stepFit M clone true w c ref X y prm).1.heap a = (fitOne (M c) (deref w.heap ref) X y prm).1) ∧
      ∀ q, q < w.heap.length → deref (stepFit M clone true w c ref X y prm).1.heap q = deref w.heap q := by
  obtain ⟨f1, f2⟩ := fitOne_same M clone c hc (deref w.heap ref) X y prm
  unfold stepFit
  rw [if_pos rfl]
  dsimp only
  cases hl : lookup w.cache ⟨resamples (M c) y, c, clone c (deref w.heap ref), X, y, prm⟩ with
  | some r =>
    have hs := sound_lookup M w hw _ r hl
    dsimp only at hs
    rw [hs] at f1 f2
    dsimp only at f1 f2
    refine ⟨?_, ?_, fun q hq => deref_append _ _ _ hq⟩
    · intro e he
      rw [he] at f1
      cases f1
    · intro r' hr'
      rw [hr'] at f1
      cases f1
      refine ⟨w.heap.length + 1, rfl, by omega, by simp, ?_⟩
      rw [← f2 _ hr']
      unfold deref
      rw [List.getD_eq_getElem?_getD, List.getElem?_append_right (by omega)]
      simp
  | none =>
    dsimp only
    rcases hf : fitOne (M c) (clone c (deref w.heap ref)) X y prm with ⟨s', e | r⟩
    · rw [hf] at f1
      refine ⟨?_, ?_, fun q hq => deref_append _ _ _ hq⟩
      · intro e' he
        rw [he] at f1
        cases f1
        rfl
      · intro r' hr'
        rw [hr'] at f1
        cases f1
    · rw [hf] at f1 f2
      refine ⟨?_, ?_, fun q hq => deref_append _ _ _ hq⟩
      · intro e' he
        rw [he] at f1
        cases f1
      · intro r' hr'
        rw [hr'] at f1
        cases f1
        refine ⟨w.heap.length, rfl, le_refl _, by simp, ?_⟩
        rw [← f2 _ hr']
        unfold deref
        rw [List.getD_eq_getElem?_getD, List.getElem?_append_right (le_refl _)]
        simp

theorem loop_on (M : C → Est V Y P S) (clone : C → S → S) (fps : List (Name × Dict P)) (steps : List (CStep C)) (hM : ∀ s ∈ steps, ∀ c ref, s.kind = .est c ref → Forgets M clone c) :
    ∀ (w : World C V Y P S) (X : V) (y : Option Y), Sound M w → Exist w steps →
      (loop M clone true fps w steps X y).2.2 = (fitLoop fps (own M w steps) X y).2 ∧
        (∀ r, (loop M clone true fps w steps X y).2.2 = .ok r → own M (loop M clone true fps w steps X y).1 (loop M clone true fps w steps X y).2.1 = (fitLoop fps (own M w steps) X y).1) ∧
        (∀ q, q < w.heap.length → deref (loop M clone true fps w steps X y).1.heap q = deref w.heap q) ∧
        (∀ r, (loop M clone true fps w steps X y).2.2 = .ok r →
          ∀ q ∈ objects (loop M clone true fps w steps X y).2.1, w.heap.length ≤ q ∧ q < (loop M clone true fps w steps X y).1.heap.length) := by
  induction steps with
  | nil => intro w X y _ _; exact ⟨rfl, fun _ _ => rfl, fun _ _ => rfl, fun _ _ q hq => by cases hq⟩
  | cons s t ih =>
    intro w X y hw he
    have iht := ih fun q hq => hM q (List.mem_cons_of_mem _ hq)
    have hs : ∀ h : List S, ∀ a : CStep C, ∀ t, List.map (resolve M h) (a :: t) = resolve M h a :: List.map (resolve M h) t := fun _ _ _ => rfl
    unfold loop
    cases hk : s.kind with
    | none =>
      have ho : ∀ t, objects (s :: t) = objects t := fun t => by simp [objects, hk]
      obtain ⟨i1, i2, i3, i4⟩ := iht w X y hw (by unfold Exist at he ⊢; rw [ho] at he; exact he)
      have hr : ∀ h : List S, resolve M h s = ⟨s.name, .none, default⟩ := fun h => by unfold resolve; rw [hk]
      dsimp only
      unfold own at i1 i2 ⊢
      rw [hs, hs, hr, hr, fitLoop]
      exact ⟨i1, fun r h => by rw [i2 r h], i3, fun r h => by rw [ho]; exact i4 r h⟩
    | passthrough =>
      have ho : ∀ t, objects (s :: t) = objects t := fun t => by simp [objects, hk]
      obtain ⟨i1, i2, i3, i4⟩ := iht w X y hw (by unfold Exist at he ⊢; rw [ho] at he; exact he)
      have hr : ∀ h : List S, resolve M h s = ⟨s.name, .passthrough, default⟩ := fun h => by unfold resolve; rw [hk]
      dsimp only
      unfold own at i1 i2 ⊢
      rw [hs, hs, hr, hr, fitLoop]
      exact ⟨i1, fun r h => by rw [i2 r h], i3, fun r h => by rw [ho]; exact i4 r h⟩
    | est c ref =>
      have ho : objects (s :: t) = ref :: objects t := by simp [objects, hk]
      dsimp only
      cases hg : Dict.get fps s.name with
      | error e =>
        unfold own
        rw [hs, resolve_est M _ s c ref hk, fitLoop]
        dsimp only
        rw [hg]
        dsimp only
        exact ⟨rfl, fun r h => (by cases h), fun _ _ => rfl, fun r h => (by cases h)⟩
      | ok prm =>
        dsimp only
        obtain ⟨a1, a2, a3⟩ := stepFit_on M clone w hw c (hM s List.mem_cons_self c ref hk) ref X y prm
        obtain ⟨b1, _, b3⟩ := stepFit_inv M clone true w hw c ref X y prm
        unfold own
        rw [hs _ s t, resolve_est M _ s c ref hk, fitLoop]
        dsimp only
        rw [hg]
        dsimp only
        rcases hf : fitOne (M c) (deref w.heap ref) X y prm with ⟨s', e | r⟩
        · rw [hf] at a1
          have a1' := a1 e rfl
          rcases hq : stepFit M clone true w c ref X y prm with ⟨w', o⟩
          rw [hq] at a1' a3
          dsimp only at a1' a3
          subst a1'
          exact ⟨rfl, fun r h => (by cases h), a3, fun r h => (by cases h)⟩
        · rw [hf] at a2
          obtain ⟨a, a4, a5, a6, a7⟩ := a2 r rfl
          rcases hq : stepFit M clone true w c ref X y prm with ⟨w', o⟩
          rw [hq] at a3 a4 a6 a7 b1 b3
          dsimp only at a3 a4 a6 a7 b1 b3
          subst a4
          have hex : Exist w' t := fun q hq => lt_of_lt_of_le (he q (by rw [ho]; exact List.mem_cons_of_mem _ hq)) b3
          obtain ⟨i1, i2, i3, i4⟩ := iht w' r.1 r.2 b1 hex
          have hown : own M w' t = List.map (resolve M w.heap) t := resolve_map_congr M _ _ t fun q hq => a3 q (he q (by rw [ho]; exact List.mem_cons_of_mem _ hq))
          rw [hown] at i1 i2
          dsimp only
          have hlen := (loop_inv M clone true fps t w' r.1 r.2 b1).2.2
          refine ⟨i1, ?_, ?_, ?_⟩
          · intro z hz
            rw [hs, resolve_est M _ _ c a rfl, i3 a a6, a7]
            exact congrArg _ (i2 z hz)
          · intro q hq
            rw [i3 q (lt_of_lt_of_le hq b3), a3 q hq]
          · intro z hz q hq
            have : objects ({ s with kind := .est c a } :: (loop M clone true fps w' t r.1 r.2).2.1) = a :: objects (loop M clone true fps w' t r.1 r.2).2.1 := by simp [objects]
            rw [this] at hq
            rcases List.mem_cons.1 hq with rfl | hq
            · exact ⟨a5, lt_of_lt_of_le a6 hlen⟩
            · exact ⟨le_trans b3 (i4 z hz q hq).1, (i4 z hz q hq).2⟩

/-! ### Whole calls -/

omit [DecidableEq V] [DecidableEq Y] [DecidableEq P] [DecidableEq S] [Inhabited S] in
theorem fitted_eq (m : Method) (steps : List (Step V Y P S)) (X : V) (y : Option Y) (prm : Dict P) :
    fitted m steps X y prm =
      match fitInner steps X y prm with
      | (front, .error err) => (front ++ steps.getLast?.toList, .error err)
      | (front, .ok r) =>
        match r.final.kind with
        | .est e => (front ++ [{ r.final with state := (lastCall m e r.final.state r.X r.y r.params).1 }], (lastCall m e r.final.state r.X r.y r.params).2)
        | _ => (front ++ [r.final], .ok (passOut m r.X r.y)) := by
  cases m <;> simp only [fitted, Pipeline.fit, Pipeline.fitTransform, Pipeline.fitTransformResample, withFinal] <;>
    rcases fitInner steps X y prm with ⟨front, e | r⟩ <;> dsimp only <;> try rfl
  · cases r.final.kind <;> rfl
  · cases r.final.kind with
    | est e =>
      dsimp only [lastCall, fitTransformOne]
    | _ => rfl
  · cases r.final.kind with
    | est e =>
      dsimp only [lastCall]
      cases e.fitTransformResample with
      | some f =>
        dsimp only
        rcases f r.final.state r.X r.y r.params with ⟨a, b | b⟩ <;> rfl
      | none =>
        cases e.fitTransform with
        | some f =>
          dsimp only
          rcases f r.final.state r.X r.y r.params with ⟨a, b | b⟩ <;> rfl
        | none => rfl
    | _ => rfl

theorem own_dropLast (M : C → Est V Y P S) (w : World C V Y P S) (steps : List (CStep C)) : (own M w steps).dropLast = own M w steps.dropLast := by
  unfold own
  rw [List.map_dropLast]

theorem own_getLast (M : C → Est V Y P S) (w : World C V Y P S) (steps : List (CStep C)) : (own M w steps).getLast? = steps.getLast?.map (resolve M w.heap) := by
  unfold own
  rw [List.getLast?_map]

theorem objects_append (a b : List (CStep C)) : objects (a ++ b) = objects a ++ objects b := by
  unfold objects
  rw [List.filterMap_append]

/-- A call, given what the loop over the first steps does: it behaves like the reference if the loop does, and the final object is untouched by the loop and not shared with the steps returned by it. -/
theorem call_of_loop (M : C → Est V Y P S) (clone : C → S → S) (memory : Bool) (m : Method) (w : World C V Y P S) (steps : List (CStep C)) (X : V) (y : Option Y) (prm : Dict P)
    (hex : Exist w steps)
    (h1 : ∀ fps, (loop M clone memory fps w steps.dropLast X y).2.2 = (fitLoop fps (own M w steps.dropLast) X y).2)
    (h2 : ∀ fps r, (loop M clone memory fps w steps.dropLast X y).2.2 = .ok r →
      own M (loop M clone memory fps w steps.dropLast X y).1 (loop M clone memory fps w steps.dropLast X y).2.1 = (fitLoop fps (own M w steps.dropLast) X y).1)
    (h3 : ∀ fps s c ref, steps.getLast? = some s → s.kind = .est c ref → deref (loop M clone memory fps w steps.dropLast X y).1.heap ref = deref w.heap ref)
    (h4 : ∀ fps s c ref r, steps.getLast? = some s → s.kind = .est c ref → (loop M clone memory fps w steps.dropLast X y).2.2 = .ok r → ref ∉ objects (loop M clone memory fps w steps.dropLast X y).2.1)
    (h5 : ∀ fps, w.heap.length ≤ (loop M clone memory fps w steps.dropLast X y).1.heap.length) :
    (call M clone memory m w steps X y prm).2.2 = (fitted m (own M w steps) X y prm).2 ∧
      ∀ r, (call M clone memory m w steps X y prm).2.2 = .ok r →
        own M (call M clone memory m w steps X y prm).1 (call M clone memory m w steps X y prm).2.1 = (fitted m (own M w steps) X y prm).1 := by
  rw [fitted_eq]
  unfold call fitInner
  rw [show steps.map (resolve M w.heap) = own M w steps from rfl]
  cases hv : validateSteps (own M w steps) with
  | error e => exact ⟨rfl, fun r h => (by cases h)⟩
  | ok u =>
    cases hp : routeParams (own M w steps) prm with
    | error e => exact ⟨rfl, fun r h => (by cases h)⟩
    | ok fps =>
      dsimp only
      rw [own_dropLast, own_getLast]
      have k1 := h1 fps
      have k2 := h2 fps
      have k3 := h3 fps
      have k4 := h4 fps
      have k5 := h5 fps
      rcases hl : loop M clone memory fps w steps.dropLast X y with ⟨w', front, o⟩
      rcases hf : fitLoop fps (own M w steps.dropLast) X y with ⟨front', o'⟩
      rw [hl] at k1 k2 k3 k4 k5
      rw [hf] at k1 k2
      dsimp only at k1 k2 k3 k4 k5
      subst k1
      cases o with
      | error e => exact ⟨rfl, fun r h => (by cases h)⟩
      | ok r =>
        have k2' := k2 r rfl
        subst k2'
        dsimp only
        cases hs : steps.getLast? with
        | none => exact ⟨rfl, fun r h => (by cases h)⟩
        | some s =>
          have hmem : s ∈ steps := List.mem_of_getLast? hs
          dsimp only [Option.map_some]
          cases hk : s.kind with
          | none =>
            have hr : ∀ h : List S, resolve M h s = ⟨s.name, .none, default⟩ := fun h => by unfold resolve; rw [hk]
            rw [hr]
            refine ⟨rfl, fun z _ => ?_⟩
            change List.map _ (front ++ [s]) = List.map _ front ++ _
            rw [List.map_append, List.map_singleton, hr]
          | passthrough =>
            have hr : ∀ h : List S, resolve M h s = ⟨s.name, .passthrough, default⟩ := fun h => by unfold resolve; rw [hk]
            rw [hr]
            refine ⟨rfl, fun z _ => ?_⟩
            change List.map _ (front ++ [s]) = List.map _ front ++ _
            rw [List.map_append, List.map_singleton, hr]
          | est c ref =>
            have hr := fun h => resolve_est M h s c ref hk
            have hlt : ref < w'.heap.length := lt_of_lt_of_le (hex ref (mem_objects steps s hmem c ref hk)) k5
            rw [hr]
            dsimp only
            cases hg : Dict.get fps s.name with
            | error e => exact ⟨rfl, fun r h => (by cases h)⟩
            | ok q =>
              dsimp only
              rw [k3 s c ref hs hk]
              refine ⟨rfl, fun z _ => ?_⟩
              change List.map (resolve M (w'.heap.set ref _)) (front ++ [s]) = List.map (resolve M w'.heap) front ++ _
              rw [List.map_append, List.map_singleton, hr, deref_set_self _ _ _ hlt,
                resolve_map_congr M _ w'.heap front fun a ha => deref_set_ne _ _ _ _ (by rintro rfl; exact k4 s c a r hs hk rfl ha)]

theorem split_last (steps : List (CStep C)) (s : CStep C) (hs : steps.getLast? = some s) : steps = steps.dropLast ++ [s] := by
  have hne : steps ≠ [] := by rintro rfl; cases hs
  rw [List.getLast?_eq_some_getLast hne] at hs
  rw [← Option.some.inj hs, List.dropLast_append_getLast hne]

theorem exist_dropLast (w : World C V Y P S) (steps : List (CStep C)) (h : Exist w steps) : Exist w steps.dropLast := by
  intro r hr
  obtain ⟨a, ha, hq⟩ := List.mem_filterMap.1 hr
  exact h r (List.mem_filterMap.2 ⟨a, List.dropLast_subset _ ha, hq⟩)

/-- With `memory` the objects that existed before the loop are not changed by it. -/
theorem stepFit_prefix (M : C → Est V Y P S) (clone : C → S → S) (w : World C V Y P S) (c : C) (ref : Nat) (X : V) (y : Option Y) (prm : Dict P) :
    w.heap <+: (stepFit M clone true w c ref X y prm).1.heap := by
  unfold stepFit
  rw [if_pos rfl]
  dsimp only
  split
  · exact List.prefix_append _ _
  · rcases fitOne (M c) (clone c (deref w.heap ref)) X y prm with ⟨s', e | r⟩ <;> exact List.prefix_append _ _

theorem loop_prefix (M : C → Est V Y P S) (clone : C → S → S) (fps : List (Name × Dict P)) (steps : List (CStep C)) :
    ∀ (w : World C V Y P S) (X : V) (y : Option Y), w.heap <+: (loop M clone true fps w steps X y).1.heap := by
  induction steps with
  | nil => intro w X y; exact List.prefix_refl _
  | cons s t ih =>
    intro w X y
    unfold loop
    cases hk : s.kind with
    | none => exact ih w X y
    | passthrough => exact ih w X y
    | est c ref =>
      dsimp only
      cases hg : Dict.get fps s.name with
      | error e => exact List.prefix_refl _
      | ok prm =>
        dsimp only
        have i := stepFit_prefix M clone w c ref X y prm
        rcases hf : stepFit M clone true w c ref X y prm with ⟨w', e | r⟩
        · rw [hf] at i
          exact i
        · rw [hf] at i
          exact i.trans (ih w' r.2.1 r.2.2)

/-! ### A second fit with the same configuration -/

theorem samestep_heap (clone : C → S → S) (h₁ h₂ : List S) (a b : CStep C) (ha : ∀ c r, a.kind = .est c r → r < h₁.length) (hb : ∀ c r, b.kind = .est c r → r < h₂.length)
    (h : SameStep clone h₁ h₂ a b) (h₁' h₂' : List S) (p₁ : h₁ <+: h₁') (p₂ : h₂ <+: h₂') : SameStep clone h₁' h₂' a b := by
  obtain ⟨x₁, rfl⟩ := p₁
  obtain ⟨x₂, rfl⟩ := p₂
  obtain ⟨hn, hm⟩ := h
  refine ⟨hn, ?_⟩
  cases hka : a.kind with
  | none =>
    cases hkb : b.kind <;> rw [hka, hkb] at hm <;> first | trivial | exact hm.elim
  | passthrough =>
    cases hkb : b.kind <;> rw [hka, hkb] at hm <;> first | trivial | exact hm.elim
  | est c r =>
    cases hkb : b.kind with
    | none => rw [hka, hkb] at hm; exact hm.elim
    | passthrough => rw [hka, hkb] at hm; exact hm.elim
    | est c' r' =>
      rw [hka, hkb] at hm
      refine ⟨hm.1, ?_⟩
      have e1 : (h₁ ++ x₁).getD r default = h₁.getD r default := deref_append h₁ x₁ r (ha c r hka)
      have e2 : (h₂ ++ x₂).getD r' default = h₂.getD r' default := deref_append h₂ x₂ r' (hb c' r' hkb)
      rw [e1, e2]
      exact hm.2

theorem stepFit_stores (M : C → Est V Y P S) (clone : C → S → S) (w : World C V Y P S) (c : C) (ref : Nat) (X : V) (y : Option Y) (prm : Dict P) (z : Nat × V × Option Y)
    (h : (stepFit M clone true w c ref X y prm).2 = .ok z) :
    ∃ s', lookup (stepFit M clone true w c ref X y prm).1.cache ⟨resamples (M c) y, c, clone c (deref w.heap ref), X, y, prm⟩ = some ⟨s', z.2.1, z.2.2⟩ := by
  unfold stepFit at h ⊢
  rw [if_pos rfl] at h ⊢
  dsimp only at h ⊢
  cases hl : lookup w.cache ⟨resamples (M c) y, c, clone c (deref w.heap ref), X, y, prm⟩ with
  | some r =>
    rw [hl] at h
    dsimp only at h ⊢
    cases h
    exact ⟨r.state, hl⟩
  | none =>
    rw [hl] at h
    dsimp only at h ⊢
    rcases hf : fitOne (M c) (clone c (deref w.heap ref)) X y prm with ⟨s', e | r⟩
    · rw [hf] at h
      cases h
    · rw [hf] at h
      cases h
      exact ⟨s', lookup_new _ _ _ hl⟩

theorem stepFit_hit (M : C → Est V Y P S) (clone : C → S → S) (w : World C V Y P S) (c : C) (ref : Nat) (X : V) (y : Option Y) (prm : Dict P) (r : Stored V Y S)
    (h : lookup w.cache ⟨resamples (M c) y, c, clone c (deref w.heap ref), X, y, prm⟩ = some r) :
    stepFit M clone true w c ref X y prm = ({ w with heap := w.heap ++ [clone c (deref w.heap ref), r.state] }, .ok (w.heap.length + 1, r.X, r.y)) := by
  unfold stepFit
  rw [if_pos rfl]
  dsimp only
  rw [h]

theorem exist_tail (w w' : World C V Y P S) (s : CStep C) (t : List (CStep C)) (h : Exist w (s :: t)) (hp : w.heap <+: w'.heap) : Exist w' t := by
  intro r hr
  refine lt_of_lt_of_le (h r ?_) hp.length_le
  obtain ⟨a, ha, hq⟩ := List.mem_filterMap.1 hr
  exact List.mem_filterMap.2 ⟨a, List.mem_cons_of_mem _ ha, hq⟩

theorem same_tail (clone : C → S → S) (w w' v v' : World C V Y P S) (a b : List (CStep C)) (h : List.Forall₂ (SameStep clone w.heap v.heap) a b) (ha : Exist w a) (hb : Exist v b)
    (p₁ : w.heap <+: w'.heap) (p₂ : v.heap <+: v'.heap) : List.Forall₂ (SameStep clone w'.heap v'.heap) a b := by
  induction h with
  | nil => exact .nil
  | @cons x y t u hxy _ ih =>
    refine .cons (samestep_heap clone _ _ x y ?_ ?_ hxy _ _ p₁ p₂) (ih (exist_tail w w x t ha (List.prefix_refl _)) (exist_tail v v y u hb (List.prefix_refl _)))
    · intro c r hk
      exact ha r (mem_objects (x :: t) x List.mem_cons_self c r hk)
    · intro c r hk
      exact hb r (mem_objects (y :: u) y List.mem_cons_self c r hk)

theorem loop_hit (M : C → Est V Y P S) (clone : C → S → S) (fps : List (Name × Dict P)) (steps : List (CStep C)) :
    ∀ (steps' : List (CStep C)) (w v : World C V Y P S) (X : V) (y : Option Y) (z : V × Option Y), Sound M w → List.Forall₂ (SameStep clone w.heap v.heap) steps steps' → Exist w steps → Exist v steps' →
      (loop M clone true fps w steps X y).2.2 = .ok z → Extends (loop M clone true fps w steps X y).1.cache v.cache → (loop M clone true fps v steps' X y).1.trace = v.trace := by
  induction steps with
  | nil =>
    intro steps' w v X y z _ hs _ _ _ _
    cases hs
    rfl
  | cons s t ih =>
    intro steps' w v X y z hw hs hex hex' hz hext
    cases hs with
    | @cons _ s' _ t' hss hst =>
    obtain ⟨hn, hm⟩ := hss
    have htail : ∀ (w₁ v₁ : World C V Y P S), w.heap <+: w₁.heap → v.heap <+: v₁.heap → List.Forall₂ (SameStep clone w₁.heap v₁.heap) t t' := fun w₁ v₁ p q =>
      same_tail clone w w₁ v v₁ t t' hst (exist_tail w w s t hex (List.prefix_refl _)) (exist_tail v v s' t' hex' (List.prefix_refl _)) p q
    unfold loop at hz hext ⊢
    cases hk : s.kind with
    | none =>
      cases hk' : s'.kind <;> rw [hk, hk'] at hm
      · rw [hk] at hz hext
        exact ih t' w v X y z hw (htail w v (List.prefix_refl _) (List.prefix_refl _)) (exist_tail w w s t hex (List.prefix_refl _)) (exist_tail v v s' t' hex' (List.prefix_refl _)) hz hext
      · exact hm.elim
      · exact hm.elim
    | passthrough =>
      cases hk' : s'.kind <;> rw [hk, hk'] at hm
      · exact hm.elim
      · rw [hk] at hz hext
        exact ih t' w v X y z hw (htail w v (List.prefix_refl _) (List.prefix_refl _)) (exist_tail w w s t hex (List.prefix_refl _)) (exist_tail v v s' t' hex' (List.prefix_refl _)) hz hext
      · exact hm.elim
    | est c ref =>
      cases hk' : s'.kind with
      | none => rw [hk, hk'] at hm; exact hm.elim
      | passthrough => rw [hk, hk'] at hm; exact hm.elim
      | est c' ref' =>
        rw [hk, hk'] at hm
        obtain ⟨rfl, hm⟩ := hm
        rw [hk] at hz hext
        dsimp only at hz hext ⊢
        rw [← hn]
        cases hg : Dict.get fps s.name with
        | error e =>
          rw [hg] at hz
        | ok prm =>
          rw [hg] at hz hext
          dsimp only at hz hext ⊢
          have hinv := (stepFit_inv M clone true w hw c ref X y prm).1
          have hpre := stepFit_prefix M clone w c ref X y prm
          have hst' := fun z => stepFit_stores M clone w c ref X y prm z
          rcases hf : stepFit M clone true w c ref X y prm with ⟨w₁, e | r⟩
          · rw [hf] at hz
            cases hz
          · rw [hf] at hz hext hinv hpre hst'
            dsimp only at hz hext hinv hpre hst'
            obtain ⟨st, hl⟩ := hst' r rfl
            have hl' := hext _ _ ((loop_inv M clone true fps t w₁ r.2.1 r.2.2 hinv).2.1 _ _ hl)
            have hm' : clone c (deref w.heap ref) = clone c (deref v.heap ref') := hm
            rw [hm'] at hl'
            rw [stepFit_hit M clone v c ref' X y prm _ hl']
            dsimp only
            exact ih t' w₁ _ r.2.1 r.2.2 z hinv (htail w₁ _ hpre (List.prefix_append _ _)) (exist_tail w w₁ s t hex hpre) (exist_tail v _ s' t' hex' (List.prefix_append _ _)) hz hext

theorem emptyParams_eq (steps : List (Step V Y P S)) : emptyParams steps = ((steps.filter fun s => !s.kind.isNone).map fun s => s.name).foldl (fun d n => Dict.set d n []) [] := by
  unfold emptyParams
  rw [List.foldl_map]

theorem route_same (M : C → Est V Y P S) (clone : C → S → S) (w v : World C V Y P S) (a b : List (CStep C)) (h : List.Forall₂ (SameStep clone w.heap v.heap) a b) (prm : Dict P) :
    routeParams (own M w a) prm = routeParams (own M v b) prm := by
  unfold routeParams
  rw [emptyParams_eq, emptyParams_eq]
  congr 2
  unfold own
  induction h with
  | nil => rfl
  | @cons x y t u hxy _ ih =>
    obtain ⟨hn, hm⟩ := hxy
    have : (resolve M w.heap x).name = (resolve M v.heap y).name ∧ (resolve M w.heap x).kind.isNone = (resolve M v.heap y).kind.isNone := by
      unfold resolve
      cases hka : x.kind <;> cases hkb : y.kind <;> rw [hka, hkb] at hm <;> first | exact hm.elim | exact ⟨hn, rfl⟩
    rw [List.map_cons, List.map_cons, List.filter_cons, List.filter_cons, this.2]
    split
    · rw [List.map_cons, List.map_cons, ih, this.1]
    · exact ih

theorem forall₂_dropLast {A B : Type} (R : A → B → Prop) (a : List A) (b : List B) (h : List.Forall₂ R a b) : List.Forall₂ R a.dropLast b.dropLast := by
  induction h with
  | nil => exact .nil
  | cons hxy ht ih =>
    cases ht with
    | nil => exact .nil
    | cons h1 h2 => exact .cons hxy ih

end Gtda.Props.PipelineCache

namespace Gtda.Props

open Py Gtda.Pipeline Gtda.PipelineCache Gtda.Spec.PipelineCache Gtda.Props.PipelineCache

variable {C V Y P S : Type} [DecidableEq C] [DecidableEq V] [DecidableEq Y] [DecidableEq P] [DecidableEq S] [Inhabited S]

/-- C117: without `memory`, if no object is used in two steps, the pipeline keeps its steps and fits the objects given: `fit`, `fit_transform` and `fit_transform_resample` return what they return for
steps with objects of their own, and if they do not raise, leave the objects in the same states. -/
theorem C117_without_memory (M : C → Est V Y P S) (clone : C → S → S) (m : Method) (w : World C V Y P S) (steps : List (CStep C)) (hex : Exist w steps) (hsep : (objects steps).Nodup)
    (X : V) (y : Option Y) (prm : Dict P) :
    (call M clone false m w steps X y prm).2.2 = (fitted m (own M w steps) X y prm).2 ∧
      ∀ r, (call M clone false m w steps X y prm).2.2 = .ok r →
        own M (call M clone false m w steps X y prm).1 (call M clone false m w steps X y prm).2.1 = (fitted m (own M w steps) X y prm).1 := by
  have hnd : (objects steps.dropLast).Nodup := hsep.sublist (List.Sublist.filterMap _ (List.dropLast_sublist _))
  have h := fun fps => loop_off M clone fps steps.dropLast w X y (exist_dropLast w steps hex) hnd
  have hout : ∀ s c ref, steps.getLast? = some s → s.kind = .est c ref → ref ∉ objects steps.dropLast := by
    intro s c ref hs hk hmem
    rw [split_last steps s hs, objects_append] at hsep
    have := (List.nodup_append.1 hsep).2.2 ref hmem ref (mem_objects [s] s List.mem_cons_self c ref hk)
    exact this rfl
  exact call_of_loop M clone false m w steps X y prm hex (fun fps => (h fps).2.1) (fun fps r _ => by rw [(h fps).1]; exact (h fps).2.2.1)
    (fun fps s c ref hs hk => (h fps).2.2.2.2 ref (hout s c ref hs hk)) (fun fps s c ref r hs hk _ => by rw [(h fps).1]; exact hout s c ref hs hk)
    (fun fps => le_of_eq (h fps).2.2.2.1.symm)

/-- C117: with `memory`, whatever was done before with the same cache directory, also with other pipelines, and whether or not objects are shared between steps, the pipeline returns, or raises, what it would for
steps with objects of their own and no cache, and if it does not raise its steps are then fitted in the same way. Transformers are assumed to forget earlier fits. -/
theorem C117_with_memory (M : C → Est V Y P S) (clone : C → S → S) (history : List (Op C V Y P S)) (w : World C V Y P S) (hw : w = run M clone {} history)
    (m : Method) (steps : List (CStep C)) (hex : Exist w steps) (hM : Forgetful M clone steps) (X : V) (y : Option Y) (prm : Dict P) :
    (call M clone true m w steps X y prm).2.2 = (fitted m (own M w steps) X y prm).2 ∧
      ∀ r, (call M clone true m w steps X y prm).2.2 = .ok r →
        own M (call M clone true m w steps X y prm).1 (call M clone true m w steps X y prm).2.1 = (fitted m (own M w steps) X y prm).1 := by
  have hsound : Sound M w := by
    rw [hw]
    exact (run_inv M clone history {} fun e he => by cases he).1
  have h := fun fps => loop_on M clone fps steps.dropLast hM w X y hsound (exist_dropLast w steps hex)
  have hlt : ∀ s c ref, steps.getLast? = some s → s.kind = .est c ref → ref < w.heap.length := fun s c ref hs hk => hex ref (mem_objects steps s (List.mem_of_getLast? hs) c ref hk)
  exact call_of_loop M clone true m w steps X y prm hex (fun fps => (h fps).1) (fun fps r hr => (h fps).2.1 r hr)
    (fun fps s c ref hs hk => (h fps).2.2.1 ref (hlt s c ref hs hk))
    (fun fps s c ref r hs hk hr hmem => absurd ((h fps).2.2.2 r hr ref hmem).1 (not_le.2 (hlt s c ref hs hk)))
    (fun fps => (loop_inv M clone true fps steps.dropLast w X y hsound).2.2)

/-- C117: so caching changes nothing that can be observed on a pipeline whose steps share no objects. -/
theorem C117_same (M : C → Est V Y P S) (clone : C → S → S) (history : List (Op C V Y P S)) (w : World C V Y P S) (hw : w = run M clone {} history)
    (m : Method) (steps : List (CStep C)) (hex : Exist w steps) (hM : Forgetful M clone steps) (hsep : (objects steps).Nodup) (X : V) (y : Option Y) (prm : Dict P) :
    (call M clone true m w steps X y prm).2.2 = (call M clone false m w steps X y prm).2.2 ∧
      ∀ r, (call M clone true m w steps X y prm).2.2 = .ok r →
        own M (call M clone true m w steps X y prm).1 (call M clone true m w steps X y prm).2.1 = own M (call M clone false m w steps X y prm).1 (call M clone false m w steps X y prm).2.1 := by
  obtain ⟨a1, a2⟩ := C117_with_memory M clone history w hw m steps hex hM X y prm
  obtain ⟨b1, b2⟩ := C117_without_memory M clone m w steps hex hsep X y prm
  refine ⟨a1.trans b1.symm, fun r hr => ?_⟩
  rw [a2 r hr, b2 r (by rw [b1, ← a1]; exact hr)]

/-- C117: with `memory`, objects that existed before the call are not touched, also if it raises; the only exception is the object of the final step. No assumption on the transformers is needed. -/
theorem C117_objects_kept (M : C → Est V Y P S) (clone : C → S → S) (m : Method) (w : World C V Y P S) (steps : List (CStep C)) (X : V) (y : Option Y) (prm : Dict P) (r : Nat) (hr : r < w.heap.length)
    (hlast : ∀ s c, steps.getLast? = some s → s.kind ≠ .est c r) :
    (call M clone true m w steps X y prm).1.heap[r]? = w.heap[r]? := by
  have key : ∀ h : List S, w.heap <+: h → h[r]? = w.heap[r]? := by
    rintro h ⟨t, rfl⟩
    exact List.getElem?_append_left hr
  unfold call
  split
  · rfl
  split
  · rfl
  rename_i fps _
  have hp := loop_prefix M clone fps steps.dropLast w X y
  split
  · rename_i w' front err hl
    rw [hl] at hp
    exact key _ hp
  · rename_i w' front z hl
    rw [hl] at hp
    split
    · exact key _ hp
    · rename_i s hs
      split
      · rename_i c ref hk
        split
        · exact key _ hp
        · change (w'.heap.set ref _)[r]? = _
          rw [List.getElem?_set_ne (by rintro rfl; exact hlast s c hs hk)]
          exact key _ hp
      · exact key _ hp

/-- C117: after a fit that did not raise, and whatever is done in between, fitting a pipeline whose steps have the same names, classes and constructor parameters on the same data with the same targets
and fit parameters does not fit any transformer again. -/
theorem C117_no_refit (M : C → Est V Y P S) (clone : C → S → S) (history : List (Op C V Y P S)) (w : World C V Y P S) (hw : w = run M clone {} history)
    (m : Method) (steps : List (CStep C)) (hex : Exist w steps) (X : V) (y : Option Y) (prm : Dict P) (r : Out V Y) (hr : (call M clone true m w steps X y prm).2.2 = .ok r)
    (later : List (Op C V Y P S)) (v : World C V Y P S) (hv : v = run M clone (call M clone true m w steps X y prm).1 later)
    (m' : Method) (steps' : List (CStep C)) (hex' : Exist v steps') (hsame : List.Forall₂ (SameStep clone w.heap v.heap) steps steps') :
    (call M clone true m' v steps' X y prm).1.trace = v.trace := by
  have hsound : Sound M w := by
    rw [hw]
    exact (run_inv M clone history {} fun e he => by cases he).1
  have hext : Extends (call M clone true m w steps X y prm).1.cache v.cache := by
    rw [hv]
    exact (run_inv M clone later _ (call_inv M clone true m w hsound steps X y prm).1).2.1
  have hroute := route_same M clone w v steps steps' hsame prm
  unfold call
  split
  · rfl
  rw [show steps'.map (resolve M v.heap) = own M v steps' from rfl, ← hroute]
  split
  · rfl
  rename_i fps hfps
  have hloop : (loop M clone true fps v steps'.dropLast X y).1.trace = v.trace := by
    unfold call at hr hext
    rw [show steps.map (resolve M w.heap) = own M w steps from rfl] at hr hext
    cases hval : validateSteps (own M w steps) with
    | error e => rw [hval] at hr; cases hr
    | ok u =>
      rw [hval] at hr hext
      rw [hfps] at hr hext
      dsimp only at hr hext
      have hhit := loop_hit M clone fps steps.dropLast steps'.dropLast w v X y
      rcases hl : loop M clone true fps w steps.dropLast X y with ⟨w', front, e | z⟩
      · rw [hl] at hr
        cases hr
      · rw [hl] at hr hext hhit
        refine hhit z hsound (forall₂_dropLast _ _ _ hsame) (exist_dropLast w steps hex) (exist_dropLast v steps' hex') rfl ?_
        dsimp only at hext ⊢
        revert hext
        split
        · exact id
        · split
          · split <;> exact id
          · exact id
  split
  · rename_i w' front err hl
    rw [hl] at hloop
    exact hloop
  · rename_i w' front z hl
    rw [hl] at hloop
    split
    · exact hloop
    split
    · split <;> exact hloop
    · exact hloop

/-! ### A concrete case -/

/-- A transformer with a parameter `s.1`: `fit` stores the data times the parameter, `transform` adds what was stored. -/
def shift : Est Nat Nat Nat (Nat × Nat) := plainMixin (fun s X _ _ => ((s.1, s.1 * X), .ok ())) (fun s X => .ok (X + s.2))

/-- Its clones have the same parameter and nothing stored. -/
def unfit : Unit → Nat × Nat → Nat × Nat := fun _ s => (s.1, 0)

/-- Two steps with objects of their own. -/
def apart : List (CStep Unit) := [⟨['a'], .est () 0⟩, ⟨['b'], .passthrough⟩, ⟨['c'], .est () 1⟩]

/-- Two steps with the same object. -/
def shared : List (CStep Unit) := [⟨['a'], .est () 0⟩, ⟨['c'], .est () 0⟩]

/-- Two objects were created, and a pipeline was fitted. -/
def past : List (Op Unit Nat Nat Nat (Nat × Nat)) := [.new (2, 7), .new (3, 0), .fit true .fit apart 5 none []]

example : Forgetful (fun _ : Unit => shift) unfit apart ∧ Forgetful (fun _ : Unit => shift) unfit shared := by
  have h : ∀ c, Forgets (fun _ : Unit => shift) unfit c := fun c s X y prm => ⟨⟨rfl, fun _ _ => rfl⟩, fun f hf => by cases hf; exact ⟨rfl, fun _ _ => rfl⟩, fun f hf => by cases hf⟩
  exact ⟨fun _ _ c _ _ => h c, fun _ _ c _ _ => h c⟩

/-- The world after `past`: the object of the first step is as it was, its fitted clone is a third object; fitting again on the same data returns the stored result as an object of its own. -/
example : let w := run (fun _ : Unit => shift) unfit {} past
    w.heap = [(2, 7), (3, 45), (2, 10)] ∧ w.trace.length = 1 ∧
      (call (fun _ : Unit => shift) unfit true .fitTransform w apart 5 none []).2.2 = .ok (.data 60) ∧
      (call (fun _ : Unit => shift) unfit true .fitTransform w apart 5 none []).1.trace.length = 1 ∧
      (call (fun _ : Unit => shift) unfit true .fitTransform w apart 6 none []).1.trace.length = 2 ∧
      (call (fun _ : Unit => shift) unfit false .fitTransform w apart 5 none []).2.2 = .ok (.data 60) := by
  refine ⟨?_, ?_, ?_, ?_, ?_, ?_⟩ <;> decide +kernel

example : Exist (run (fun _ : Unit => shift) unfit {} past) apart ∧ (objects apart).Nodup ∧ Exist (run (fun _ : Unit => shift) unfit {} past) shared := by
  refine ⟨?_, ?_, ?_⟩
  · unfold Exist; decide +kernel
  · decide +kernel
  · unfold Exist; decide +kernel

/-- C117: if one object is used in two steps, caching does make a difference: without it both steps hold what the last of them fitted, so that `transform` does not return what `fit_transform` returned on the
same data; with it, it does. -/
theorem C117_sharing_matters : ∃ (w : World Unit Nat Nat Nat (Nat × Nat)) (M : Unit → Est Nat Nat Nat (Nat × Nat)), w = run M unfit {} [.new (1, 0)] ∧ Forgetful M unfit shared ∧
    (call M unfit false .fitTransform w shared 1 none []).2.2 = .ok (.data 4) ∧
    Pipeline.transform (own M (call M unfit false .fitTransform w shared 1 none []).1 (call M unfit false .fitTransform w shared 1 none []).2.1) 1 = .ok 5 ∧
    (call M unfit true .fitTransform w shared 1 none []).2.2 = .ok (.data 4) ∧
    Pipeline.transform (own M (call M unfit true .fitTransform w shared 1 none []).1 (call M unfit true .fitTransform w shared 1 none []).2.1) 1 = .ok 4 := by
  refine ⟨_, fun _ => shift, rfl, ?_, ?_, ?_, ?_, ?_⟩
  · exact fun _ _ c _ _ s X y prm => ⟨⟨rfl, fun _ _ => rfl⟩, fun f hf => by cases hf; exact ⟨rfl, fun _ _ => rfl⟩, fun f hf => by cases hf⟩
  all_goals decide +kernel

end Gtda.Props
