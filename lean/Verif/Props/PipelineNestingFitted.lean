import Verif.Props.PipelineNesting

/-!
# C118 and C119, continued: nested pipelines after fitting; `resample`
-/

set_option autoImplicit false
set_option linter.unusedSectionVars false

namespace Gtda.Props.PipelineNesting

open Py Gtda.Pipeline Gtda.PipelineNesting Gtda.Spec.PipelineNesting Gtda.PipelineCache Gtda.Spec.PipelineCache
open Gtda.Props.PipelineCache (fitted_eq)

variable {V Y P S : Type}

theorem forall₂_refl' {α : Type} {R : α → α → Prop} (h : ∀ a, R a a) : ∀ l : List α, List.Forall₂ R l l
  | [] => .nil
  | a :: l => .cons (h a) (forall₂_refl' h l)

theorem forall₂_split {α β : Type} {R : α → β → Prop} (a b : List α) : ∀ {F : List β}, List.Forall₂ R (a ++ b) F → ∃ A B, F = A ++ B ∧ List.Forall₂ R a A ∧ List.Forall₂ R b B := by
  induction a with
  | nil => exact fun h => ⟨[], _, rfl, .nil, h⟩
  | cons x a ih =>
    intro F h
    rw [List.cons_append] at h
    cases h with
    | cons h1 h2 =>
      obtain ⟨A, B, rfl, hA, hB⟩ := ih h2
      exact ⟨_ :: A, B, rfl, .cons h1 hA, hB⟩

theorem fitLoop_rel (R : Step V Y P S → Step V Y P S → Prop) (h0 : ∀ s, R s s) (fps : List (Name × Dict P)) (steps : List (Step V Y P S))
    (h1 : ∀ s ∈ steps, ∀ e, s.kind = .est e → ∀ X y prm, R s { s with state := (fitOne e s.state X y prm).1 }) :
    ∀ (X : V) (y : Option Y), List.Forall₂ R steps (fitLoop fps steps X y).1 := by
  induction steps with
  | nil => intro X y; exact .nil
  | cons s t ih =>
    intro X y
    have ih := ih fun s hs => h1 s (List.mem_cons_of_mem _ hs)
    by_cases hk : ∃ e, s.kind = .est e
    · obtain ⟨e, hk⟩ := hk
      cases hg : Dict.get fps s.name with
      | error err =>
        rw [fitLoop]
        simp only [hk, hg]
        exact forall₂_refl' h0 _
      | ok prm =>
        rw [fitLoop_cons_est fps s _ e hk X y prm hg]
        have hR := h1 s (List.mem_cons_self ..) e hk X y prm
        generalize fitOne e s.state X y prm = q at hR
        rcases q with ⟨st, err | r⟩
        · exact .cons hR (forall₂_refl' h0 _)
        · exact .cons hR (ih _ _)
    · rw [fitLoop_cons_skip _ _ _ fun e he => hk ⟨e, he⟩]
      exact .cons (h0 s) (ih _ _)

theorem dropLast_getLast? {α : Type} (l : List α) : l.dropLast ++ l.getLast?.toList = l := by
  rcases List.eq_nil_or_concat l with rfl | ⟨a, b, rfl⟩
  · rfl
  · simp

theorem fitted_rel (R : Step V Y P S → Step V Y P S → Prop) (h0 : ∀ s, R s s) (m : Method) (steps : List (Step V Y P S))
    (h1 : ∀ s ∈ steps, ∀ e, s.kind = .est e → ∀ X y prm, R s { s with state := (fitOne e s.state X y prm).1 })
    (h2 : ∀ s ∈ steps, ∀ e, s.kind = .est e → ∀ X y prm, R s { s with state := (lastCall m e s.state X y prm).1 }) (X : V) (y : Option Y) (D : Dict P) :
    List.Forall₂ R steps (fitted m steps X y D).1 := by
  have hl : ∀ fps X y, List.Forall₂ R steps.dropLast (fitLoop fps steps.dropLast X y).1 :=
    fun fps X y => fitLoop_rel R h0 fps _ (fun s hs => h1 s (List.dropLast_subset _ hs)) X y
  have app : ∀ front, List.Forall₂ R steps.dropLast front → ∀ l, List.Forall₂ R steps.getLast?.toList l → List.Forall₂ R steps (front ++ l) := by
    intro front hf l hl
    have := List.rel_append (R := R) hf hl
    dsimp only at this
    rwa [dropLast_getLast?] at this
  rw [fitted_eq]
  unfold fitInner
  cases validateSteps steps with
  | error err => exact app _ (forall₂_refl' h0 _) _ (forall₂_refl' h0 _)
  | ok u =>
    dsimp only
    cases routeParams steps D with
    | error err => exact app _ (forall₂_refl' h0 _) _ (forall₂_refl' h0 _)
    | ok fps =>
      dsimp only
      have := hl fps X y
      generalize fitLoop fps steps.dropLast X y = q at this
      rcases q with ⟨front, err | r⟩
      · exact app _ this _ (forall₂_refl' h0 _)
      · dsimp only
        cases hg : steps.getLast? with
        | none =>
          have := app _ this _ (forall₂_refl' h0 _)
          rwa [hg] at this
        | some s =>
          have hs : s ∈ steps := List.mem_of_getLast? hg
          rw [hg] at app
          dsimp only
          cases hk : s.kind with
          | none =>
            dsimp only
            rw [hk]
            exact app _ this _ (.cons (h0 s) .nil)
          | passthrough =>
            dsimp only
            rw [hk]
            exact app _ this _ (.cons (h0 s) .nil)
          | est e =>
            dsimp only
            cases Dict.get fps s.name with
            | error err => exact app _ this _ (.cons (h0 s) .nil)
            | ok prm =>
              dsimp only
              rw [hk]
              have h3 := h2 s hs e hk r.1 r.2 prm
              simp only [hk] at h3
              exact app _ this _ (.cons h3 .nil)

/-- The same name and the same estimator, in another state perhaps. -/
def SameBut (s t : Step V Y P S) : Prop := t.name = s.name ∧ t.kind = s.kind

theorem fitted_same (m : Method) (steps : List (Step V Y P S)) (X : V) (y : Option Y) (D : Dict P) : List.Forall₂ SameBut steps (fitted m steps X y D).1 :=
  fitted_rel SameBut (fun _ => ⟨rfl, rfl⟩) m steps (fun _ _ _ _ _ _ _ => ⟨rfl, rfl⟩) (fun _ _ _ _ _ _ _ => ⟨rfl, rfl⟩) X y D

theorem put_same {a b : List (Step V Y P S)} (h : List.Forall₂ SameBut a b) : ∀ st, put a st = put b st := by
  unfold put
  induction h with
  | nil => intro st; rfl
  | @cons s t a b hs _ ih =>
    intro st
    cases st with
    | nil => rfl
    | cons x st =>
      obtain ⟨sn, sk, ss⟩ := s
      obtain ⟨tn, tk, ts⟩ := t
      obtain ⟨h1, h2⟩ := hs
      dsimp only at h1 h2
      subst h1 h2
      exact congrArg _ (ih st)

theorem finalEst_same {a b : List (Step V Y P S)} (h : List.Forall₂ SameBut a b) : finalEst a = finalEst b := by
  unfold finalEst
  induction h with
  | nil => rfl
  | @cons s t a b hs hab ih =>
    cases hab with
    | nil => simp only [List.getLast?_singleton, hs.2]
    | cons h1 h2 =>
      rw [List.getLast?_cons_cons, List.getLast?_cons_cons]
      exact ih

theorem hasInverse_same {a b : List (Step V Y P S)} (h : List.Forall₂ SameBut a b) : hasInverse a = hasInverse b := by
  unfold hasInverse iter
  induction h with
  | nil => rfl
  | @cons s t a b hs hab ih =>
    rw [List.filterMap_cons, List.filterMap_cons, hs.2]
    cases s.kind with
    | none => exact ih
    | passthrough => exact ih
    | est e =>
      dsimp only
      rw [List.all_cons, List.all_cons, ih]

theorem asEst_same {a b : List (Step V Y P S)} (h : List.Forall₂ SameBut a b) : asEst a = asEst b := by
  have e1 : hasTransform a = hasTransform b := by unfold hasTransform; rw [finalEst_same h]
  have e2 : hasResample a = hasResample b := by unfold hasResample; rw [finalEst_same h]
  have e3 : hasTransformResample a = hasTransformResample b := by unfold hasTransformResample; rw [finalEst_same h]
  have e4 : hasScore a = hasScore b := by unfold hasScore; rw [finalEst_same h]
  unfold asEst
  rw [e1, e2, e3, e4, hasInverse_same h]
  simp only [put_same h]

theorem put_length (a : List (Step V Y P S)) (st : List S) : (put a st).length = min a.length st.length := by
  unfold put
  simp

theorem states_length (a : List (Step V Y P S)) : (states a).length = a.length := by
  unfold states
  simp

theorem length_fitted (m : Method) (steps : List (Step V Y P S)) (X : V) (y : Option Y) (D : Dict P) : (fitted m steps X y D).1.length = steps.length :=
  (fitted_same m steps X y D).length_eq.symm

theorem length_fit (steps : List (Step V Y P S)) (X : V) (y : Option Y) (D : Dict P) : (Pipeline.fit steps X y D).1.length = steps.length := length_fitted .fit steps X y D
theorem length_ft (steps : List (Step V Y P S)) (X : V) (y : Option Y) (D : Dict P) : (Pipeline.fitTransform steps X y D).1.length = steps.length := length_fitted .fitTransform steps X y D
theorem length_ftr (steps : List (Step V Y P S)) (X : V) (y : Option Y) (D : Dict P) : (Pipeline.fitTransformResample steps X y D).1.length = steps.length :=
  length_fitted .fitTransformResample steps X y D

theorem asEst_fitOne_length (inner : List (Step V Y P S)) (st : List S) (hst : st.length = inner.length) (X : V) (y : Option Y) (prm : Dict P) :
    (fitOne (asEst inner) st X y prm).1.length = st.length := by
  have hp : (put inner st).length = st.length := by rw [put_length, hst, Nat.min_self]
  unfold fitOne
  split_ifs
  · unfold fitTransformResampleOne
    dsimp only [asEst]
    rw [states_length, length_ftr, hp]
  · unfold fitTransformOne
    dsimp only [asEst]
    have : (states (Pipeline.fitTransform (put inner st) X y prm).1).length = st.length := by rw [states_length, length_ft, hp]
    split <;> rename_i hq <;> (injection hq with h1 h2; rw [← h1]; exact this)

theorem asEst_lastCall_length (m : Method) (inner : List (Step V Y P S)) (st : List S) (hst : st.length = inner.length) (X : V) (y : Option Y) (prm : Dict P) :
    (lastCall m (asEst inner) st X y prm).1.length = st.length := by
  have hp : (put inner st).length = st.length := by rw [put_length, hst, Nat.min_self]
  cases m with
  | fit =>
    show (states (Pipeline.fit (put inner st) X y prm).1).length = _
    rw [states_length, length_fit, hp]
  | fitTransform =>
    show (states (Pipeline.fitTransform (put inner st) X y prm).1).length = _
    rw [states_length, length_ft, hp]
  | fitTransformResample =>
    show (states (Pipeline.fitTransformResample (put inner st) X y prm).1).length = _
    rw [states_length, length_ftr, hp]

/-- The same step of a nested pipeline, with as many states. -/
def SameLen (s t : Step V Y P (List S)) : Prop := t.name = s.name ∧ t.kind = s.kind ∧ t.state.length = s.state.length

theorem mem_nested {n : Name} {pre inner post : List (Step V Y P S)} {s : Step V Y P (List S)} (hs : s ∈ nested n pre inner post) : (∃ a, s = liftStep a) ∨ s = nest n inner := by
  unfold nested at hs
  rcases List.mem_append.1 hs with h | h
  · obtain ⟨a, -, rfl⟩ := List.mem_map.1 h
    exact Or.inl ⟨a, rfl⟩
  · rcases List.mem_cons.1 h with rfl | h
    · exact Or.inr rfl
    · obtain ⟨a, -, rfl⟩ := List.mem_map.1 h
      exact Or.inl ⟨a, rfl⟩

theorem liftStep_kind {a : Step V Y P S} {e : Est V Y P (List S)} (h : (liftStep a).kind = .est e) : ∃ e', a.kind = .est e' ∧ e = lift e' := by
  unfold liftStep at h
  cases hk : a.kind with
  | none => rw [hk] at h; cases h
  | passthrough => rw [hk] at h; cases h
  | est e' =>
    rw [hk] at h
    injection h with h
    exact ⟨e', rfl, h.symm⟩

theorem nested_len (m : Method) (n : Name) (pre inner post : List (Step V Y P S)) (X : V) (y : Option Y) (D : Dict P) :
    List.Forall₂ SameLen (nested n pre inner post) (fitted m (nested n pre inner post) X y D).1 := by
  refine fitted_rel SameLen (fun _ => ⟨rfl, rfl, rfl⟩) m _ ?_ ?_ X y D
  · intro s hs e hk X y prm
    refine ⟨rfl, rfl, ?_⟩
    rcases mem_nested hs with ⟨a, rfl⟩ | rfl
    · obtain ⟨e', -, rfl⟩ := liftStep_kind hk
      show (fitOne (lift e') [a.state] X y prm).1.length = 1
      rw [fitOne_lift]
      rfl
    · injection hk with hk
      subst hk
      exact asEst_fitOne_length inner _ (states_length inner) X y prm
  · intro s hs e hk X y prm
    refine ⟨rfl, rfl, ?_⟩
    rcases mem_nested hs with ⟨a, rfl⟩ | rfl
    · obtain ⟨e', -, rfl⟩ := liftStep_kind hk
      show (lastCall m (lift e') [a.state] X y prm).1.length = 1
      rw [lastCall_lift]
      rfl
    · injection hk with hk
      subst hk
      exact asEst_lastCall_length m inner _ (states_length inner) X y prm

theorem allStates_length {a b : List (Step V Y P (List S))} (h : List.Forall₂ SameLen a b) : (allStates b).length = (allStates a).length := by
  unfold allStates
  induction h with
  | nil => rfl
  | cons hs _ ih =>
    rw [List.map_cons, List.map_cons, List.flatten_cons, List.flatten_cons, List.length_append, List.length_append, ih, hs.2.2]

theorem lift_of {pre pre' : List (Step V Y P S)} (hp : List.Forall₂ SameBut pre pre') : ∀ {A : List (Step V Y P (List S))}, List.Forall₂ SameLen (pre.map liftStep) A →
    allStates A = states pre' → A = pre'.map liftStep := by
  induction hp with
  | nil =>
    intro A hA _
    cases hA
    rfl
  | @cons s t pre pre' hs _ ih =>
    intro A hA hst
    rw [List.map_cons] at hA
    cases hA with
    | @cons _ x _ A hx hA =>
      obtain ⟨xn, xk, xs⟩ := x
      obtain ⟨h1, h2, h3⟩ := hx
      dsimp only at h1 h2 h3
      change xs.length = 1 at h3
      obtain ⟨z, rfl⟩ := List.length_eq_one_iff.1 h3
      rw [allStates_cons] at hst
      change z :: allStates A = t.state :: states pre' at hst
      injection hst with h4 h5
      rw [List.map_cons, ih hA h5]
      congr 1
      unfold liftStep
      rw [hs.1, hs.2, h1, h2, h4]
      rfl

/-- After fitting, a nested pipeline is the nested pipeline of the fitted steps. -/
theorem fitted_nested (m : Method) (n : Name) (pre inner post : List (Step V Y P S)) (X : V) (y : Option Y) (D D' : Dict P)
    (h : allStates (fitted m (nested n pre inner post) X y D').1 = (fitted m (pre ++ inner ++ post) X y D).1.map fun s => s.state) :
    ∃ pre' inner' post', List.Forall₂ SameBut pre pre' ∧ List.Forall₂ SameBut inner inner' ∧ List.Forall₂ SameBut post post' ∧
      (fitted m (pre ++ inner ++ post) X y D).1 = pre' ++ inner' ++ post' ∧ (fitted m (nested n pre inner post) X y D').1 = nested n pre' inner' post' := by
  have hF := fitted_same m (pre ++ inner ++ post) X y D
  have hN := nested_len m n pre inner post X y D'
  generalize (fitted m (pre ++ inner ++ post) X y D).1 = F at hF h ⊢
  generalize (fitted m (nested n pre inner post) X y D').1 = N at hN h ⊢
  rw [List.append_assoc] at hF
  obtain ⟨pre', F, rfl, hF1, hF2⟩ := forall₂_split _ _ hF
  obtain ⟨inner', post', rfl, hF3, hF4⟩ := forall₂_split _ _ hF2
  rw [← List.append_assoc] at h ⊢
  unfold nested at hN
  obtain ⟨A, B, rfl, hN1, hN2⟩ := forall₂_split _ _ hN
  cases hN2 with
  | @cons _ b _ C hb hC =>
    obtain ⟨bn, bk, bs⟩ := b
    obtain ⟨h1, h2, h3⟩ := hb
    dsimp only at h1 h2 h3
    rw [allStates_append, allStates_cons, List.map_append, List.map_append, List.append_assoc] at h
    have l1 := allStates_length hN1
    rw [states_liftStep, states_length, hF1.length_eq] at l1
    obtain ⟨k1, k2⟩ := List.append_inj h (by rw [l1, List.length_map])
    change bs.length = (states inner).length at h3
    rw [states_length, hF3.length_eq] at h3
    obtain ⟨k3, k4⟩ := List.append_inj k2 (by rw [List.length_map]; exact h3)
    refine ⟨pre', inner', post', hF1, hF3, hF4, rfl, ?_⟩
    unfold nested
    rw [lift_of hF1 hN1 k1, lift_of hF4 hC k4]
    congr 2
    unfold nest
    dsimp only at k3
    rw [h1, h2, k3, ← asEst_same hF3]
    rfl

theorem lawful_transform {steps : List (Step V Y P S)} (h : ∀ s ∈ steps, Lawful s) : AllTransform steps := by
  intro s hs e hk
  rcases h s hs e hk with ⟨tr, _, h, _⟩ | ⟨tr, _, _, _, _, h, _⟩ <;> rw [h] <;> rfl

theorem lawful_same {a b : List (Step V Y P S)} (h : List.Forall₂ SameBut a b) (hl : ∀ s ∈ a, Lawful s) : ∀ s ∈ b, Lawful s := by
  induction h with
  | nil => exact fun s hs => by cases hs
  | @cons s t a b hs _ ih =>
    intro u hu e hk
    rcases List.mem_cons.1 hu with rfl | hu
    · exact hl s (List.mem_cons_self ..) e (hs.2 ▸ hk)
    · exact ih (fun s hs => hl s (List.mem_cons_of_mem _ hs)) u hu e hk

theorem own_filter (a : Name) (keep : Name × P → Bool) (fp : Dict P) (h : ∀ kv ∈ fp, keep kv = false → ∀ b p, split2 kv.1 = some (b, p) → b ≠ a) :
    Pipeline.own a (fp.filter keep) = Pipeline.own a fp := by
  induction fp with
  | nil => rfl
  | cons kv fp ih =>
    have ih := ih fun kv hkv => h kv (List.mem_cons_of_mem _ hkv)
    cases hk : keep kv with
    | true => rw [List.filter_cons_of_pos hk, own_cons, own_cons, ih]
    | false =>
      rw [List.filter_cons_of_neg (by rw [hk]; exact nofun), own_cons, ih]
      cases hs : split2 kv.1 with
      | none => rfl
      | some q =>
        obtain ⟨b, p⟩ := q
        dsimp only
        rw [if_neg (h kv (List.mem_cons_self ..) hk b p hs)]
        rfl

theorem same_names {a b : List (Step V Y P S)} (h : List.Forall₂ SameBut a b) : (b.map fun s => s.name) = a.map fun s => s.name := by
  induction h with
  | nil => rfl
  | cons hs _ ih => rw [List.map_cons, List.map_cons, hs.1, ih]

theorem same_append {a b c d : List (Step V Y P S)} (h : List.Forall₂ SameBut a b) (h' : List.Forall₂ SameBut c d) : List.Forall₂ SameBut (a ++ c) (b ++ d) := List.rel_append h h'

theorem same_front {a b : List (Step V Y P S)} (h : List.Forall₂ SameBut a b) (p : Step V Y P S → Bool) (hp : ∀ s t, SameBut s t → p t = p s) : b.dropLast.any p = a.dropLast.any p := by
  induction h with
  | nil => rfl
  | cons hs hab ih =>
    cases hab with
    | nil => rfl
    | cons h1 h2 => rw [List.dropLast_cons_cons, List.dropLast_cons_cons, List.any_cons, List.any_cons, hp _ _ hs, ih]

theorem valid_same {a b : List (Step V Y P S)} (h : List.Forall₂ SameBut a b) (hv : ValidSteps a) : ValidSteps b := by
  rw [← validate_iff] at hv ⊢
  unfold validateSteps at hv ⊢
  dsimp only at hv ⊢
  have he : b.isEmpty = a.isEmpty := by cases h <;> rfl
  rw [same_names h, he, same_front h _ ?_]
  · exact hv
  · intro s t hs
    rw [hs.2]

theorem addressed_same {a b : List (Step V Y P S)} (h : List.Forall₂ SameBut a b) (k : Name) (hk : AddressedTo a k) : AddressedTo b k := by
  induction h with
  | nil => exact hk
  | @cons s t a b hs _ ih =>
    obtain ⟨u, hu, h1, p, h2⟩ := hk
    rcases List.mem_cons.1 hu with rfl | hu
    · exact ⟨t, List.mem_cons_self .., by rw [hs.2]; exact h1, p, by rw [hs.1]; exact h2⟩
    · obtain ⟨v, hv, h3⟩ := ih ⟨u, hu, h1, p, h2⟩
      exact ⟨v, List.mem_cons_of_mem _ hv, h3⟩

theorem readdressed_same {n : Name} {pre inner post pre' inner' post' : List (Step V Y P S)} (h1 : List.Forall₂ SameBut pre pre') (h2 : List.Forall₂ SameBut inner inner')
    (h3 : List.Forall₂ SameBut post post') (kv kv' : Name × P) (h : Readdressed n pre inner post kv kv') : Readdressed n pre' inner' post' kv kv' := by
  obtain ⟨e, h | h⟩ := h
  · exact ⟨e, Or.inl ⟨addressed_same h2 _ h.1, h.2⟩⟩
  · exact ⟨e, Or.inr ⟨addressed_same (same_append h1 h3) _ h.1, h.2⟩⟩

theorem nested_same {n : Name} {pre inner post pre' inner' post' : List (Step V Y P S)} (h1 : List.Forall₂ SameBut pre pre') (h2 : List.Forall₂ SameBut inner inner')
    (h3 : List.Forall₂ SameBut post post') : List.Forall₂ SameBut (nested n pre inner post) (nested n pre' inner' post') := by
  have hm : ∀ {a b : List (Step V Y P S)}, List.Forall₂ SameBut a b → List.Forall₂ SameBut (a.map liftStep) (b.map liftStep) := by
    intro a b h
    rw [List.forall₂_map_left_iff, List.forall₂_map_right_iff]
    refine h.imp fun s t hs => ⟨hs.1, ?_⟩
    unfold liftStep
    rw [hs.2]
  exact same_append (hm h1) (.cons ⟨rfl, congrArg Kind.est (asEst_same h2).symm⟩ (hm h3))

end Gtda.Props.PipelineNesting

namespace Gtda.Props

open Py Gtda.Pipeline Gtda.PipelineNesting Gtda.Spec.PipelineNesting Gtda.PipelineCache Gtda.Spec.PipelineCache PipelineNesting

variable {V Y P S : Type}

/-- **C118.** Also after both pipelines have been fitted as in `C118_fit` (with or without an exception), `transform`, `transform_resample`, `inverse_transform` and `score` of the two return, or raise,
the same: the methods of the nested pipeline use the states its inner steps got. -/
theorem C118_fitted (m : Method) (n : Name) (pre inner post : List (Step V Y P S)) (X : V) (y : Option Y) (D D' : Dict P)
    (hvn : ValidSteps (nested n pre inner post)) (hvf : ValidSteps (pre ++ inner ++ post)) (hi : inner ≠ []) (hl : ∀ s ∈ inner, Lawful s)
    (hlast : n.getLast? ≠ some '_') (hD : IsDict D) (hD' : IsDict D') (h : List.Forall₂ (Readdressed n pre inner post) D D') (X' : V) (y' : Option Y) :
    callTransform (fitted m (nested n pre inner post) X y D').1 X' = callTransform (fitted m (pre ++ inner ++ post) X y D).1 X' ∧
    callTransformResample (fitted m (nested n pre inner post) X y D').1 X' y' = callTransformResample (fitted m (pre ++ inner ++ post) X y D).1 X' y' ∧
    callInverse (fitted m (nested n pre inner post) X y D').1 X' y' = callInverse (fitted m (pre ++ inner ++ post) X y D).1 X' y' ∧
    callScore (fitted m (nested n pre inner post) X y D').1 X' y' = callScore (fitted m (pre ++ inner ++ post) X y D).1 X' y' := by
  obtain ⟨pre', inner', post', -, h2, -, e1, e2⟩ := fitted_nested m n pre inner post X y D D' (C118_fit m n pre inner post X y D D' hvn hvf hi hl hlast hD hD' h).2
  have hi' : inner' ≠ [] := by
    rintro rfl
    cases h2
    exact hi rfl
  have ht := lawful_transform (lawful_same h2 hl)
  rw [e1, e2]
  obtain ⟨t1, t2⟩ := C118_transform n pre' inner' post' hi' ht X' y'
  exact ⟨t1, t2, C118_inverse n pre' inner' post' hi' X' y', C118_score n pre' inner' post' hi' (fun _ => ht) X' y'⟩

example : callTransform (Pipeline.fit (nested ['n'] exPre exInner exPost) 3 none []).1 5 = callTransform (Pipeline.fit (exPre ++ exInner ++ exPost) 3 none []).1 5 ∧
    callTransform (Pipeline.fit (nested ['n'] exPre exInner exPost) 3 none []).1 5 ≠ callTransform (nested ['n'] exPre exInner exPost) 5 := by
  constructor <;> decide +kernel

/-- A call of one of the three methods: data, targets, and the fit parameters for the flat and for the nested pipeline. -/
structure FitCall (V Y P : Type) where
  method : Method
  X : V
  y : Option Y
  flat : Dict P
  nested : Dict P

/-- The steps after some calls on the flat pipeline, whether they raised or not. -/
def afterFlat (steps : List (Step V Y P S)) (calls : List (FitCall V Y P)) : List (Step V Y P S) := calls.foldl (fun st c => (fitted c.method st c.X c.y c.flat).1) steps

/-- The steps after the same calls on the nested pipeline. -/
def afterNested (steps : List (Step V Y P (List S))) (calls : List (FitCall V Y P)) : List (Step V Y P (List S)) :=
  calls.foldl (fun st c => (fitted c.method st c.X c.y c.nested).1) steps

theorem history_nested (n : Name) (hlast : n.getLast? ≠ some '_') (calls : List (FitCall V Y P)) : ∀ (pre inner post : List (Step V Y P S)), ValidSteps (nested n pre inner post) →
    ValidSteps (pre ++ inner ++ post) → inner ≠ [] → (∀ s ∈ inner, Lawful s) →
    (∀ c ∈ calls, IsDict c.flat ∧ IsDict c.nested ∧ List.Forall₂ (Readdressed n pre inner post) c.flat c.nested) →
    ∃ pre' inner' post', List.Forall₂ SameBut pre pre' ∧ List.Forall₂ SameBut inner inner' ∧ List.Forall₂ SameBut post post' ∧
      afterFlat (pre ++ inner ++ post) calls = pre' ++ inner' ++ post' ∧ afterNested (nested n pre inner post) calls = nested n pre' inner' post' := by
  induction calls with
  | nil =>
    intro pre inner post _ _ _ _ _
    exact ⟨pre, inner, post, forall₂_refl' (fun _ => ⟨rfl, rfl⟩) _, forall₂_refl' (fun _ => ⟨rfl, rfl⟩) _, forall₂_refl' (fun _ => ⟨rfl, rfl⟩) _, rfl, rfl⟩
  | cons c calls ih =>
    intro pre inner post hvn hvf hi hl hc
    obtain ⟨d1, d2, d3⟩ := hc c (List.mem_cons_self ..)
    obtain ⟨pre', inner', post', h1, h2, h3, e1, e2⟩ := fitted_nested c.method n pre inner post c.X c.y c.flat c.nested
      (C118_fit c.method n pre inner post c.X c.y c.flat c.nested hvn hvf hi hl hlast d1 d2 d3).2
    have hi' : inner' ≠ [] := by
      rintro rfl
      cases h2
      exact hi rfl
    obtain ⟨pre'', inner'', post'', g1, g2, g3, f1, f2⟩ := ih pre' inner' post' (valid_same (nested_same h1 h2 h3) hvn) (valid_same (same_append (same_append h1 h2) h3) hvf) hi' (lawful_same h2 hl)
      (fun c' hc' => ⟨(hc c' (List.mem_cons_of_mem _ hc')).1, (hc c' (List.mem_cons_of_mem _ hc')).2.1,
        (hc c' (List.mem_cons_of_mem _ hc')).2.2.imp fun kv kv' => readdressed_same h1 h2 h3 kv kv'⟩)
    have trans : ∀ {a b c : List (Step V Y P S)}, List.Forall₂ SameBut a b → List.Forall₂ SameBut b c → List.Forall₂ SameBut a c := by
      intro a b c hab
      induction hab generalizing c with
      | nil => exact id
      | cons h _ ih =>
        intro hbc
        cases hbc with
        | cons h' hbc => exact .cons ⟨h'.1.trans h.1, h'.2.trans h.2⟩ (ih hbc)
    refine ⟨pre'', inner'', post'', trans h1 g1, trans h2 g2, trans h3 g3, ?_, ?_⟩
    · unfold afterFlat
      rw [List.foldl_cons, e1]
      exact f1
    · unfold afterNested
      rw [List.foldl_cons, e2]
      exact f2

/-- **C118.** After any history of calls of `fit`, `fit_transform` and `fit_transform_resample` on both pipelines, whether they raised or not, the next such call returns, or raises, the same and leaves all estimators in the same
states, and `transform`, `transform_resample`, `inverse_transform` and `score` return, or raise, the same. -/
theorem C118_history (n : Name) (pre inner post : List (Step V Y P S)) (hvn : ValidSteps (nested n pre inner post)) (hvf : ValidSteps (pre ++ inner ++ post)) (hi : inner ≠ [])
    (hl : ∀ s ∈ inner, Lawful s) (hlast : n.getLast? ≠ some '_') (calls : List (FitCall V Y P))
    (hc : ∀ c ∈ calls, IsDict c.flat ∧ IsDict c.nested ∧ List.Forall₂ (Readdressed n pre inner post) c.flat c.nested) :
    (∀ (m : Method) (X : V) (y : Option Y) (D D' : Dict P), IsDict D → IsDict D' → List.Forall₂ (Readdressed n pre inner post) D D' →
      (fitted m (afterNested (nested n pre inner post) calls) X y D').2 = (fitted m (afterFlat (pre ++ inner ++ post) calls) X y D).2 ∧
      allStates (fitted m (afterNested (nested n pre inner post) calls) X y D').1 = (fitted m (afterFlat (pre ++ inner ++ post) calls) X y D).1.map fun s => s.state) ∧
    ∀ (X : V) (y : Option Y),
      callTransform (afterNested (nested n pre inner post) calls) X = callTransform (afterFlat (pre ++ inner ++ post) calls) X ∧
      callTransformResample (afterNested (nested n pre inner post) calls) X y = callTransformResample (afterFlat (pre ++ inner ++ post) calls) X y ∧
      callInverse (afterNested (nested n pre inner post) calls) X y = callInverse (afterFlat (pre ++ inner ++ post) calls) X y ∧
      callScore (afterNested (nested n pre inner post) calls) X y = callScore (afterFlat (pre ++ inner ++ post) calls) X y := by
  obtain ⟨pre', inner', post', h1, h2, h3, e1, e2⟩ := history_nested n hlast calls pre inner post hvn hvf hi hl hc
  have hi' : inner' ≠ [] := by
    rintro rfl
    cases h2
    exact hi rfl
  have hl' := lawful_same h2 hl
  have ht := lawful_transform hl'
  rw [e1, e2]
  refine ⟨fun m X y D D' hD hD' h => ?_, fun X y => ?_⟩
  · exact C118_fit m n pre' inner' post' X y D D' (valid_same (nested_same h1 h2 h3) hvn) (valid_same (same_append (same_append h1 h2) h3) hvf) hi' hl' hlast hD hD'
      (h.imp fun kv kv' => readdressed_same h1 h2 h3 kv kv')
  · obtain ⟨t1, t2⟩ := C118_transform n pre' inner' post' hi' ht X y
    exact ⟨t1, t2, C118_inverse n pre' inner' post' hi' X y, C118_score n pre' inner' post' hi' (fun _ => ht) X y⟩

example : callTransform (afterNested (nested ['n'] exPre exInner exPost) [⟨.fit, 3, none, [], []⟩, ⟨.fitTransform, 7, some 2, [], []⟩]) 5 =
      callTransform (afterFlat (exPre ++ exInner ++ exPost) [⟨.fit, 3, none, [], []⟩, ⟨.fitTransform, 7, some 2, [], []⟩]) 5 ∧
    callTransform (afterNested (nested ['n'] exPre exInner exPost) [⟨.fit, 3, none, [], []⟩, ⟨.fitTransform, 7, some 2, [], []⟩]) 5 ≠
      callTransform (afterNested (nested ['n'] exPre exInner exPost) [⟨.fit, 3, none, [], []⟩]) 5 := by
  constructor <;> decide +kernel

/-- An estimator that goes on from its state when it is fitted again, like `partial_fit`. -/
def exAcc : Est Nat Nat Nat Nat := plainMixin (fun s X _ _ => (s + X, .ok ())) fun s X => .ok (s + X)

example : (∀ s ∈ ([⟨['b'], .est exAcc, 0⟩] : List (Step Nat Nat Nat Nat)), Lawful s) ∧
    allStates (afterNested (nested ['n'] exPre [⟨['b'], .est exAcc, 0⟩] []) [⟨.fit, 3, none, [], []⟩, ⟨.fit, 7, none, [], []⟩]) = [7, 20] ∧
    states (afterFlat (exPre ++ [⟨['b'], .est exAcc, 0⟩] ++ []) [⟨.fit, 3, none, [], []⟩, ⟨.fit, 7, none, [], []⟩]) = [7, 20] ∧
    allStates (afterNested (nested ['n'] exPre [⟨['b'], .est exAcc, 0⟩] []) [⟨.fitTransform, 3, none, [], []⟩, ⟨.fitTransform, 7, none, [], []⟩]) = [7, 20] := by
  refine ⟨?_, by decide +kernel, by decide +kernel, by decide +kernel⟩
  intro s hs e he
  obtain rfl := List.mem_singleton.1 hs
  cases he
  exact Or.inl (plainMixin_isTransformer _ _)

/-- **C119, of `resample`.** There is a method `resample` if the final step is no estimator or has the method, otherwise calling it raises `AttributeError`. If all estimators have it (and do not raise
`AttributeError` themselves), calling it does not raise `AttributeError`. Missing: that this needs the method of the final step only (false, `C119_refuted_resample`). -/
theorem C119_resample_partial {A : Type} (steps : List (Step V Y P S)) (hq : ∀ s ∈ steps, ∀ e, s.kind = .est e → ∀ f, e.resample = some f → ∀ st y, f st y ≠ .error .attributeError) (X : A) (y : Option Y) :
    (hasResample steps = true ↔ FinalHas steps fun e => e.resample.isSome = true) ∧
    (¬ FinalHas steps (fun e => e.resample.isSome = true) → callResample steps X y = .error .attributeError) ∧
    ((∀ s ∈ steps, ∀ e, s.kind = .est e → e.resample.isSome = true) → callResample steps X y ≠ .error .attributeError) := by
  have hh : hasResample steps = true ↔ FinalHas steps fun e => e.resample.isSome = true := by
    rw [finalHas_iff]
    unfold hasResample
    cases finalEst steps with
    | none => simp
    | some e => simp
  refine ⟨hh, fun hn => ?_, fun ha => ?_⟩
  · unfold callResample
    rw [if_neg (fun hx => hn (hh.1 hx))]
  · unfold callResample
    rw [if_pos (hh.2 fun s e hs hk => ha s (List.mem_of_getLast? hs) e hk)]
    unfold resample
    refine foldlM_no_attr _ _ ?_ y
    intro yr es hes
    obtain ⟨s, hs, hk, _⟩ := mem_iter steps es hes
    have ht := ha s hs _ hk
    cases hu : es.1.resample with
    | none => rw [hu] at ht; cases ht
    | some f =>
      have := hq s hs _ hk f hu es.2 yr
      show (some <$> f es.2 yr : PyM (Option Y)) ≠ _
      cases hf : f es.2 yr with
      | error err =>
        rw [hf] at this
        intro hx
        apply this
        injection hx with hx
        rw [hx]
      | ok r => exact nofun

example : callResample [(⟨['a'], .est exAdd, 0⟩ : Step Nat Nat Nat Nat)] () (some 10) = .error .attributeError ∧ callResample [(⟨['a'], .est exDouble, 0⟩ : Step Nat Nat Nat Nat), ⟨['p'], .passthrough, 0⟩] () (some 10) = .ok (some 10) := by
  decide +kernel

/-- **C15.** Fit parameters addressed to a step that is `'passthrough'` are accepted and have no effect. -/
theorem C15_passthrough (m : Method) (steps : List (Step V Y P S)) (hvalid : ValidSteps steps) (X : V) (y : Option Y) (fp : Dict P) (hd : IsDict fp)
    (ha : ∀ kv ∈ fp, ∃ s ∈ steps, s.kind ≠ .none ∧ ∃ p, FirstSplit kv.1 s.name p) (keep : Name × P → Bool)
    (hkeep : ∀ kv ∈ fp, keep kv = false → ∃ s ∈ steps, s.kind = .passthrough ∧ ∃ p, FirstSplit kv.1 s.name p) :
    fitted m steps X y fp = fitted m steps X y (fp.filter keep) := by
  have hv := (validate_iff steps).2 hvalid
  have ha' : ∀ kv ∈ fp, AddressedTo steps kv.1 := by
    intro kv hkv
    obtain ⟨s, hs, hk, hp⟩ := ha kv hkv
    refine ⟨s, hs, ?_, hp⟩
    cases hn : s.kind with
    | none => exact absurd hn hk
    | passthrough => rfl
    | est e => rfl
  have hd' : IsDict (fp.filter keep) := List.Nodup.sublist (List.Sublist.map _ List.filter_sublist) hd
  have r1 := routeParams_ok steps hv fp hd ha'
  have r2 := routeParams_ok steps hv (fp.filter keep) hd' fun kv hkv => ha' kv (List.mem_of_mem_filter hkv)
  have k1 := known_ok steps fp
  have hown : ∀ s ∈ steps, ∀ e, s.kind = .est e → Pipeline.own s.name (fp.filter keep) = Pipeline.own s.name fp := by
    intro s hs e hk
    refine own_filter _ keep fp fun kv hkv hf b p hsp hb => ?_
    obtain ⟨s', hs', hk', p', hp'⟩ := hkeep kv hkv hf
    have := (split2_eq_some_iff _ _ _).2 hp'
    rw [hsp] at this
    injection this with this
    injection this with h1 _
    have := List.inj_on_of_nodup_map hvalid.2.1 hs hs' (by rw [← hb, h1])
    rw [this, hk'] at hk
    cases hk
  have k2 : Known ((liveNames steps).map fun m => (m, Pipeline.own m (fp.filter keep))) steps fun a => Pipeline.own a fp := by
    intro s hs e hk
    rw [known_ok steps (fp.filter keep) s hs e hk]
    exact congrArg _ (hown s hs e hk)
  obtain ⟨front, last, rfl⟩ : ∃ front last, steps = front ++ [last] := by
    rcases List.eq_nil_or_concat steps with h | ⟨a, b, h⟩
    · exact absurd h hvalid.1
    · exact ⟨a, b, by rw [h]; simp⟩
  rw [fitted_known m front last X y fp hv _ r1 _ k1, fitted_known m front last X y (fp.filter keep) hv _ r2 _ k2,
    fitLoop_params _ _ (fun a => Pipeline.own a fp) front (fun s hs => k1 s (List.mem_append_left _ hs)) (fun s hs => k2 s (List.mem_append_left _ hs))]

example : (Pipeline.fit [(⟨['p'], .passthrough, 0⟩ : Step Nat Nat Nat Nat), ⟨['a'], .est exAdd, 0⟩] 3 none [("p__u".toList, 5), ("a__v".toList, 1)]).2 = .ok () ∧
    (Pipeline.fit [(⟨['p'], .none, 0⟩ : Step Nat Nat Nat Nat), ⟨['a'], .est exAdd, 0⟩] 3 none [("p__u".toList, 5), ("a__v".toList, 1)]).2 = .error .keyError := by
  decide +kernel

end Gtda.Props
