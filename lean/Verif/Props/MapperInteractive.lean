import Verif.Spec.MapperInteractive
import Verif.Props.MapperParams

set_option autoImplicit false

namespace Gtda.MParams

open Py Gtda.Spec.MParams

section Leaves

variable {A : Type}

theorem clean_of_good (n : Name) (h : GoodName n) : Clean n := splitKey_plain _ h

theorem assign_absent (name : List Char) (a : A) (l : List (List Char × A)) (h : ∀ p ∈ l, p.1 ≠ name) : assign name a l = l := by
  unfold assign
  conv_rhs => rw [← List.map_id l]
  exact List.map_congr_left fun p hp => if_neg (h p hp)

theorem assign_append (name : List Char) (a : A) (l l' : List (List Char × A)) : assign name a (l ++ l') = assign name a l ++ assign name a l' := List.map_append

theorem plain_append (l l' : List (Name × Val A)) : plainParams (l ++ l') = plainParams l ++ plainParams l' := List.filterMap_append

theorem plain_name (l : List (Name × Val A)) (P : Name → Prop) (h : ∀ p ∈ l, P p.1) : ∀ p ∈ plainParams l, P p.1 := by
  intro p hp
  obtain ⟨q, hq, e⟩ := List.mem_filterMap.1 hp
  unfold plain at e
  split at e
  · cases e; exact h q hq
  · cases e

/-- What has to be known of a value and its replacement. -/
structure Replaces (path : Name) (a : A) (n : Name) (w w' : Val A) : Prop where
  here : plainParams [(n, w')] = assign path a (plainParams [(n, w)])
  below : plainParams ((getParams w').map fun p => (n ++ sep ++ p.1, p.2)) = assign path a (plainParams ((getParams w).map fun p => (n ++ sep ++ p.1, p.2)))
  names : (getParams w').map Prod.fst = (getParams w).map Prod.fst

theorem plain_prefixed (n : Name) (l : List (Name × Val A)) :
    plainParams (l.map fun p => (n ++ sep ++ p.1, p.2)) = (plainParams l).map fun p => (n ++ sep ++ p.1, p.2) := by
  unfold plainParams
  rw [List.filterMap_map, List.map_filterMap]
  congr 1
  funext p
  obtain ⟨m, v⟩ := p
  cases v <;> rfl

theorem prefixed_names (n : Name) (l l' : List (Name × Val A)) (h : l.map Prod.fst = l'.map Prod.fst) :
    (l.map fun p => (n ++ sep ++ p.1, p.2)).map Prod.fst = (l'.map fun p => (n ++ sep ++ p.1, p.2)).map Prod.fst := by
  rw [List.map_map, List.map_map]
  have := congrArg (List.map fun m => n ++ sep ++ m) h
  rw [List.map_map, List.map_map] at this
  exact this

theorem replace_fields (path : Name) (a : A) (n : Name) (w w' : Val A) (hr : Replaces path a n w w') (f : Fields A) (hget : f.get? n = some w) (hnd : f.names.Nodup)
    (ho : ∀ m ∈ f.names, m ≠ n → m ≠ path ∧ ∀ q, m ++ sep ++ q ≠ path) :
    plainParams (f.set n w').toList = assign path a (plainParams f.toList) ∧
    plainParams (deepKids (f.set n w')) = assign path a (plainParams (deepKids f)) ∧
    plainParams (deepOwn (f.set n w')) = assign path a (plainParams (deepOwn f)) ∧
    (f.set n w').toList.map Prod.fst = f.toList.map Prod.fst ∧
    (deepKids (f.set n w')).map Prod.fst = (deepKids f).map Prod.fst ∧
    (deepOwn (f.set n w')).map Prod.fst = (deepOwn f).map Prod.fst := by
  have absent : ∀ f : Fields A, n ∉ f.names → (∀ m ∈ f.names, m ≠ n → m ≠ path ∧ ∀ q, m ++ sep ++ q ≠ path) →
      plainParams f.toList = assign path a (plainParams f.toList) ∧ plainParams (deepKids f) = assign path a (plainParams (deepKids f)) ∧
      plainParams (deepOwn f) = assign path a (plainParams (deepOwn f)) := by
    intro f
    induction f using Fields.rec (motive_1 := fun _ => True) with
    | atom => trivial
    | steps => trivial
    | est => trivial
    | nil => intros; exact ⟨rfl, rfl, rfl⟩
    | cons m v rest _ ih =>
        intro hn ho
        simp only [Fields.names, Fields.toList, List.map_cons, List.mem_cons, not_or] at hn
        have hm := ho m (by simp [Fields.names, Fields.toList]) (Ne.symm hn.1)
        obtain ⟨i1, i2, i3⟩ := ih hn.2 fun k hk => ho k (by
          simp only [Fields.names, Fields.toList, List.map_cons, List.mem_cons]
          exact .inr hk)
        have s1 : assign path a (plainParams [(m, v)]) = plainParams [(m, v)] := assign_absent _ _ _ (plain_name _ (· ≠ path) (by simpa using hm.1))
        have s2 : assign path a (plainParams ((getParams v).map fun p => (m ++ sep ++ p.1, p.2))) = plainParams ((getParams v).map fun p => (m ++ sep ++ p.1, p.2)) := by
          refine assign_absent _ _ _ (plain_name _ (· ≠ path) fun p hp => ?_)
          obtain ⟨q, _, rfl⟩ := List.mem_map.1 hp
          exact hm.2 _
        refine ⟨?_, ?_, ?_⟩
        · rw [Fields.toList, ← List.singleton_append, plain_append, assign_append, s1, ← i1]
        · rw [deepKids, plain_append, assign_append, s2, ← i2]
        · rw [deepOwn, ← List.singleton_append, plain_append, plain_append, assign_append, assign_append, s1, s2, ← i3]
  induction f using Fields.rec (motive_1 := fun _ => True) with
  | atom => trivial
  | steps => trivial
  | est => trivial
  | nil => cases hget
  | cons m v rest _ ih =>
      have hnd' : m ∉ rest.names ∧ rest.names.Nodup := by
        simpa only [Fields.names, Fields.toList, List.map_cons, List.nodup_cons] using hnd
      have ho' : ∀ k ∈ rest.names, k ≠ n → k ≠ path ∧ ∀ q, k ++ sep ++ q ≠ path := fun k hk => ho k (by
          simp only [Fields.names, Fields.toList, List.map_cons, List.mem_cons]
          exact .inr hk)
      rw [Fields.get?] at hget
      rw [Fields.set]
      by_cases e : m = n
      · rw [if_pos e] at hget ⊢
        cases hget
        subst e
        obtain ⟨i1, i2, i3⟩ := absent rest hnd'.1 ho'
        refine ⟨?_, ?_, ?_, ?_, ?_, ?_⟩
        · rw [Fields.toList, Fields.toList, ← List.singleton_append, ← List.singleton_append (x := (m, w)), plain_append, plain_append, assign_append, hr.here, ← i1]
        · rw [deepKids, deepKids, plain_append, plain_append, assign_append, hr.below, ← i2]
        · rw [deepOwn, deepOwn, ← List.singleton_append, ← List.singleton_append (x := (m, w)), plain_append, plain_append, plain_append, plain_append, assign_append,
            assign_append, hr.here, hr.below, ← i3]
        · rfl
        · rw [deepKids, deepKids, List.map_append, List.map_append, prefixed_names m _ _ hr.names]
        · rw [deepOwn, deepOwn, List.map_append, List.map_append, prefixed_names m _ _ hr.names, List.map_cons, List.map_cons]
      · rw [if_neg e] at hget ⊢
        obtain ⟨i1, i2, i3, i4, i5, i6⟩ := ih hget hnd'.2 ho'
        have hm := ho m (by simp [Fields.names, Fields.toList]) e
        have s1 : assign path a (plainParams [(m, v)]) = plainParams [(m, v)] := assign_absent _ _ _ (plain_name _ (· ≠ path) (by simpa using hm.1))
        have s2 : assign path a (plainParams ((getParams v).map fun p => (m ++ sep ++ p.1, p.2))) = plainParams ((getParams v).map fun p => (m ++ sep ++ p.1, p.2)) := by
          refine assign_absent _ _ _ (plain_name _ (· ≠ path) fun p hp => ?_)
          obtain ⟨q, _, rfl⟩ := List.mem_map.1 hp
          exact hm.2 _
        refine ⟨?_, ?_, ?_, ?_, ?_, ?_⟩
        · rw [Fields.toList, Fields.toList, ← List.singleton_append, ← List.singleton_append (x := (m, v)) (l := rest.toList), plain_append, plain_append, assign_append, s1, ← i1]
        · rw [deepKids, deepKids, plain_append, plain_append, assign_append, s2, ← i2]
        · rw [deepOwn, deepOwn, ← List.singleton_append, ← List.singleton_append (x := (m, v)) (l := deepOwn rest), plain_append, plain_append, plain_append, plain_append, assign_append,
            assign_append, s1, s2, ← i3]
        · rw [Fields.toList, Fields.toList, List.map_cons, List.map_cons, i4]
        · rw [deepKids, deepKids, List.map_append, List.map_append, i5]
        · rw [deepOwn, deepOwn, List.map_append, List.map_append, List.map_cons, List.map_cons, i6]

theorem get?_of_mem (f : Fields A) (hnd : f.names.Nodup) (n : Name) (v : Val A) (h : (n, v) ∈ f.toList) : f.get? n = some v := by
  induction f using Fields.rec (motive_1 := fun _ => True) with
  | atom => trivial
  | steps => trivial
  | est => trivial
  | nil => cases h
  | cons m w rest _ ih =>
      have hnd' : m ∉ rest.names ∧ rest.names.Nodup := by
        simpa only [Fields.names, Fields.toList, List.map_cons, List.nodup_cons] using hnd
      rw [Fields.toList, List.mem_cons] at h
      rw [Fields.get?]
      rcases h with h | h
      · cases h; exact if_pos rfl
      · have hne : ¬ m = n := by
          rintro rfl
          exact hnd'.1 ((mem_names_toList rest m).2 ⟨v, h⟩)
        rw [if_neg hne]
        exact ih hnd'.2 h

theorem get?_absent (f : Fields A) (n : Name) (h : n ∉ f.names) : f.get? n = none := by
  cases e : f.get? n with
  | none => rfl
  | some v => exact absurd (get?_mem f n v e) h

theorem wellNamedFields_mem (f : Fields A) (h : WellNamedFields f) (p : Name × Val A) (hp : p ∈ f.toList) : WellNamed p.2 := by
  induction f using Fields.rec (motive_1 := fun _ => True) with
  | atom => trivial
  | steps => trivial
  | est => trivial
  | nil => cases hp
  | cons m w rest _ ih =>
      rw [WellNamedFields] at h
      rw [Fields.toList, List.mem_cons] at hp
      rcases hp with rfl | hp
      · exact h.1
      · exact ih h.2 hp

theorem wellNamedFields_set (f : Fields A) (h : WellNamedFields f) (n : Name) (v : Val A) (hv : WellNamed v) : WellNamedFields (f.set n v) := by
  induction f using Fields.rec (motive_1 := fun _ => True) with
  | atom => trivial
  | steps => trivial
  | est => trivial
  | nil => trivial
  | cons m w rest _ ih =>
      rw [WellNamedFields] at h
      rw [Fields.set]
      split
      · exact ⟨hv, h.2⟩
      · exact ⟨h.1, ih h.2⟩

theorem mem_deepKids (f : Fields A) (p : Name × Val A) (h : p ∈ deepKids f) : ∃ n v q, (n, v) ∈ f.toList ∧ q ∈ getParams v ∧ p = (n ++ sep ++ q.1, q.2) := by
  induction f using Fields.rec (motive_1 := fun _ => True) with
  | atom => trivial
  | steps => trivial
  | est => trivial
  | nil => cases h
  | cons m w rest _ ih =>
      rw [deepKids, List.mem_append] at h
      rcases h with h | h
      · obtain ⟨q, hq, e⟩ := List.mem_map.1 h
        exact ⟨m, w, q, by simp [Fields.toList], hq, e.symm⟩
      · obtain ⟨n, v, q, h1, h2⟩ := ih h
        exact ⟨n, v, q, by simp [Fields.toList, h1], h2⟩

theorem mem_deepOwn (f : Fields A) (p : Name × Val A) (h : p ∈ deepOwn f) : p ∈ f.toList ∨ ∃ n v q, (n, v) ∈ f.toList ∧ q ∈ getParams v ∧ p = (n ++ sep ++ q.1, q.2) := by
  induction f using Fields.rec (motive_1 := fun _ => True) with
  | atom => trivial
  | steps => trivial
  | est => trivial
  | nil => cases h
  | cons m w rest _ ih =>
      rw [deepOwn, List.mem_append, List.mem_cons] at h
      rcases h with h | h | h
      · obtain ⟨q, hq, e⟩ := List.mem_map.1 h
        exact .inr ⟨m, w, q, by simp [Fields.toList], hq, e.symm⟩
      · exact .inl (by simp [Fields.toList, h])
      · rcases ih h with h | ⟨n, v, q, h1, h2⟩
        · exact .inl (by simp [Fields.toList, h])
        · exact .inr ⟨n, v, q, by simp [Fields.toList, h1], h2⟩

/-- The attribute with the steps, if there is one. -/
def attrPart (attr : Option Name) (kids : Fields A) : List (Name × Val A) :=
  match attr with
  | none => []
  | some m => [(m, .steps kids)]

theorem getParams_est (attr : Option Name) (own kids : Fields A) :
    getParams (.est attr own kids) = attrPart attr kids ++ (deepOwn own ++ (kids.toList ++ deepKids kids)) := by
  cases attr <;> simp [getParams, attrPart]

/-- Setting one plain parameter by its full name changes that parameter and no other, whatever the nesting. -/
theorem set_plain (depth : Nat) (v : Val A) (hv : WellNamed v) (path : Name) (hd : path.length < depth) (a b : A) (hmem : (path, .atom b) ∈ getParams v) :
    ∃ v', setParams depth v [(path, .atom a)] = (v', none) ∧ WellNamed v' ∧ (getParams v').map Prod.fst = (getParams v).map Prod.fst ∧
      plainParams (getParams v') = assign path a (plainParams (getParams v)) := by
  induction depth generalizing v path with
  | zero => omega
  | succ depth ih =>
      cases v with
      | atom => simp [getParams] at hmem
      | steps => simp [getParams] at hmem
      | est attr own kids =>
          rw [WellNamed] at hv
          obtain ⟨hgood, hnd, hwo, hwk⟩ := hv
          have hclean : ∀ n ∈ own.names ++ kids.names, Clean n := fun n hn => clean_of_good n (hgood n hn)
          obtain ⟨ndo, ndk, hdis⟩ := List.nodup_append.1 hnd
          have own_kid : ∀ n, n ∈ own.names → n ∉ kids.names := fun n h1 h2 => hdis n h1 n h2 rfl
          -- names other than the one concerned
          have o1 : ∀ n m, Clean n → Clean m → m ≠ n → m ≠ n ∧ ∀ q, m ++ sep ++ q ≠ n := fun n m hn hm h => ⟨h, fun q e => by
            have := splitKey_sep m q hm
            rw [e, splitKey_none n hn] at this
            cases this⟩
          have o2 : ∀ n m p, Clean n → Clean m → m ≠ n → m ≠ n ++ sep ++ p ∧ ∀ q, m ++ sep ++ q ≠ n ++ sep ++ p := fun n m p hn hm h => ⟨fun e => (by
            have := splitKey_sep n p hn
            rw [← e, splitKey_none m hm] at this
            cases this), fun q e => by
            have := splitKey_sep n p hn
            rw [← e, splitKey_sep m q hm] at this
            cases this
            exact h rfl⟩
          have r1 : ∀ n b, Clean n → Replaces n a n (.atom b) (.atom a) := fun n b _ => ⟨by simp [plainParams, plain, assign], rfl, rfl⟩
          have r2 : ∀ n p (w w' : Val A) b, Clean n → (p, Val.atom b) ∈ getParams w → (getParams w').map Prod.fst = (getParams w).map Prod.fst →
              plainParams (getParams w') = assign p a (plainParams (getParams w)) → Replaces (n ++ sep ++ p) a n w w' := by
            intro n p w w' b hn hb h1 h2
            refine ⟨?_, ?_, h1⟩
            · have nw : plainParams [(n, w)] = [] := by
                cases w with
                | atom => simp [getParams] at hb
                | steps => rfl
                | est => rfl
              have nw' : plainParams [(n, w')] = [] := by
                cases w' with
                | atom =>
                    rw [getParams, List.map_nil] at h1
                    have := List.map_eq_nil_iff.1 h1.symm
                    rw [this] at hb
                    cases hb
                | steps => rfl
                | est => rfl
              rw [nw, nw']
              rfl
            · rw [plain_prefixed, plain_prefixed, h2]
              unfold assign
              rw [List.map_map, List.map_map]
              refine List.map_congr_left fun q _ => ?_
              simp only [Function.comp_apply]
              by_cases e : q.1 = p
              · rw [if_pos e, if_pos (by rw [e])]
              · rw [if_neg e, if_neg fun h => e (List.append_cancel_left h)]
          have attrNames : ∀ kids' : Fields A, (attrPart attr kids').map Prod.fst = (attrPart attr kids).map Prod.fst := fun kids' => by cases attr <;> rfl
          have attrPlain : ∀ kids' : Fields A, plainParams (attrPart attr kids') = [] := fun kids' => by cases attr <;> rfl
          -- a change of a constructor parameter
          have changeOwn : ∀ n w w', own.get? n = some w → WellNamed w' → Replaces path a n w w' → (∀ m ∈ own.names ++ kids.names, m ≠ n → m ≠ path ∧ ∀ q, m ++ sep ++ q ≠ path) →
              WellNamed (.est attr (own.set n w') kids) ∧ (getParams (.est attr (own.set n w') kids)).map Prod.fst = (getParams (.est attr own kids)).map Prod.fst ∧
              plainParams (getParams (.est attr (own.set n w') kids)) = assign path a (plainParams (getParams (.est attr own kids))) := by
            intro n w w' hget hw' hr ho
            obtain ⟨_, _, q3, _, _, q6⟩ := replace_fields path a n w w' hr own hget ndo fun m hm => ho m (List.mem_append_left _ hm)
            have hn := own_kid n (get?_mem own n w hget)
            have hk : ∀ m ∈ kids.names, m ≠ path ∧ ∀ q, m ++ sep ++ q ≠ path := fun m hm => ho m (List.mem_append_right _ hm) fun e => hn (e ▸ hm)
            have k1 : assign path a (plainParams kids.toList) = plainParams kids.toList :=
              assign_absent _ _ _ (plain_name _ (· ≠ path) fun p hp => (hk p.1 ((mem_names_toList kids p.1).2 ⟨p.2, hp⟩)).1)
            have k2 : assign path a (plainParams (deepKids kids)) = plainParams (deepKids kids) :=
              assign_absent _ _ _ (plain_name _ (· ≠ path) fun p hp => by
                obtain ⟨m, x, q, h1, h2, rfl⟩ := mem_deepKids kids p hp
                exact (hk m ((mem_names_toList kids m).2 ⟨x, h1⟩)).2 _)
            refine ⟨?_, ?_, ?_⟩
            · rw [WellNamed, names_set]
              exact ⟨hgood, hnd, wellNamedFields_set own hwo n w' hw', hwk⟩
            · simp only [getParams_est, List.map_append, q6]
            · simp only [getParams_est, plain_append, assign_append, q3, attrPlain, k1, k2]
              rfl
          have changeKid : ∀ n w w', kids.get? n = some w → WellNamed w' → Replaces path a n w w' → (∀ m ∈ own.names ++ kids.names, m ≠ n → m ≠ path ∧ ∀ q, m ++ sep ++ q ≠ path) →
              WellNamed (.est attr own (kids.set n w')) ∧ (getParams (.est attr own (kids.set n w'))).map Prod.fst = (getParams (.est attr own kids)).map Prod.fst ∧
              plainParams (getParams (.est attr own (kids.set n w'))) = assign path a (plainParams (getParams (.est attr own kids))) := by
            intro n w w' hget hw' hr ho
            obtain ⟨q1, q2, _, q4, q5, _⟩ := replace_fields path a n w w' hr kids hget ndk fun m hm => ho m (List.mem_append_right _ hm)
            have hn : n ∉ own.names := fun h => own_kid n h (get?_mem kids n w hget)
            have hk : ∀ m ∈ own.names, m ≠ path ∧ ∀ q, m ++ sep ++ q ≠ path := fun m hm => ho m (List.mem_append_left _ hm) fun e => hn (e ▸ hm)
            have k1 : assign path a (plainParams (deepOwn own)) = plainParams (deepOwn own) :=
              assign_absent _ _ _ (plain_name _ (· ≠ path) fun p hp => by
                rcases mem_deepOwn own p hp with h | ⟨m, x, q, h1, h2, rfl⟩
                · exact (hk p.1 ((mem_names_toList own p.1).2 ⟨p.2, h⟩)).1
                · exact (hk m ((mem_names_toList own m).2 ⟨x, h1⟩)).2 _)
            refine ⟨?_, ?_, ?_⟩
            · rw [WellNamed, names_set]
              exact ⟨hgood, hnd, hwo, wellNamedFields_set kids hwk n w' hw'⟩
            · simp only [getParams_est, List.map_append, q4, q5, attrNames (kids.set n w')]
            · simp only [getParams_est, plain_append, assign_append, q1, q2, attrPlain, k1]
              rfl
          have mo : ∀ n w, (n, w) ∈ own.toList → n ∈ own.names := fun n w h => (mem_names_toList own n).2 ⟨w, h⟩
          have mk : ∀ n w, (n, w) ∈ kids.toList → n ∈ kids.names := fun n w h => (mem_names_toList kids n).2 ⟨w, h⟩
          have len : ∀ n p : Name, (n ++ sep ++ p).length < depth + 1 → p.length < depth := fun n p h => by
            simp only [List.length_append, sep, List.length_cons, List.length_nil] at h
            omega
          rw [getParams_est] at hmem
          simp only [List.mem_append] at hmem
          rcases hmem with h | h | h | h
          · cases attr with
            | none => cases h
            | some m =>
                rw [attrPart, List.mem_singleton] at h
                cases h
          · rcases mem_deepOwn own _ h with h | ⟨n, w, q, h1, h2, e⟩
            · have hn := mo path _ h
              have hcl := hclean path (List.mem_append_left _ hn)
              refine ⟨_, setParams_assign depth attr own kids [(path, .atom a)] ?_, ?_⟩
              · intro p hp
                rw [List.mem_singleton] at hp
                subst hp
                exact ⟨splitKey_none path hcl, own_kid path hn, hn⟩
              · exact changeOwn path (.atom b) (.atom a) (get?_of_mem own ndo path _ h) trivial (r1 path b hcl) fun m hm hne => o1 path m hcl (hclean m hm) hne
            · obtain ⟨qp, qv⟩ := q
              simp only [Prod.mk.injEq] at e
              obtain ⟨rfl, rfl⟩ := e
              have hn := mo n w h1
              have hcl := hclean n (List.mem_append_left _ hn)
              obtain ⟨w', g1, g2, g3, g4⟩ := ih w (wellNamedFields_mem own hwo (n, w) h1) qp (len n qp hd) h2
              have hs := setParams_own_nested depth attr own kids n w hcl (get?_absent kids n (own_kid n hn)) (get?_of_mem own ndo n w h1) [(qp, .atom a)] (by simp)
              rw [g1] at hs
              refine ⟨_, hs, ?_⟩
              exact changeOwn n w w' (get?_of_mem own ndo n w h1) g2 (r2 n qp w w' b hcl h2 g3 g4) fun m hm hne => o2 n m qp hcl (hclean m hm) hne
          · have hn := mk path _ h
            have hcl := hclean path (List.mem_append_right _ hn)
            refine ⟨_, setParams_replace depth attr own kids [(path, .atom a)] ?_, ?_⟩
            · intro p hp
              rw [List.mem_singleton] at hp
              subst hp
              exact ⟨splitKey_none path hcl, hn⟩
            · exact changeKid path (.atom b) (.atom a) (get?_of_mem kids ndk path _ h) trivial (r1 path b hcl) fun m hm hne => o1 path m hcl (hclean m hm) hne
          · obtain ⟨n, w, q, h1, h2, e⟩ := mem_deepKids kids _ h
            obtain ⟨qp, qv⟩ := q
            simp only [Prod.mk.injEq] at e
            obtain ⟨rfl, rfl⟩ := e
            have hn := mk n w h1
            have hcl := hclean n (List.mem_append_right _ hn)
            obtain ⟨w', g1, g2, g3, g4⟩ := ih w (wellNamedFields_mem kids hwk (n, w) h1) qp (len n qp hd) h2
            have hs := setParams_kid depth attr own kids n w hcl (get?_of_mem kids ndk n w h1) [(qp, .atom a)] (by simp)
            rw [g1] at hs
            refine ⟨_, hs, ?_⟩
            exact changeKid n w w' (get?_of_mem kids ndk n w h1) g2 (r2 n qp w w' b hcl h2 g3 g4) fun m hm hne => o2 n m qp hcl (hclean m hm) hne

end Leaves

end Gtda.MParams

namespace Gtda.Props

open Py Gtda.MParams Gtda.Spec.MParams Gtda.MInter

section Slots

variable {A : Type}

/-- The entries of one parameter. -/
def ent (p : Name × Val A) : List (Name × Val A) := p :: (getParams p.2).map fun q => (p.1 ++ sep ++ q.1, q.2)

/-- The parameters which may be or contain estimators. -/
def slotList (s : Slots A) : List (Name × Val A) :=
  [(nScaler, s.scaler), (nFilter, s.filter), (nCover, s.cover), (nPrepr, s.prepr), (nClusterer, s.clusterer), (nPrefer, s.prefer)] ++
  match s.nerve with
  | none => []
  | some t => [(nMinInter, t.1), (nStore, t.2.1), (nContract, t.2.2)]

/-- The other two. -/
def globalsOf (s : Slots A) : List (Name × Val A) := [(nMemory, s.memory), (nVerbose, s.verbose)]

theorem reported_eq (s : Slots A) : reported s = globalsOf s ++ (slotList s).flatMap ent := by
  obtain ⟨t1, t2, t3, t4, t5, t6, t7, t8, t9, t10, t11, t12, t13⟩ := name_texts
  unfold reported entries slotList globalsOf
  rw [t1, t2, t3, t4, t5, t6, t7, t9, t10, t11, t12, t13]
  cases s.nerve with
  | none => simp [ent]
  | some t => simp [ent]

theorem slot_names (s : Slots A) : (∀ m ∈ (slotList s).map Prod.fst, Clean m) ∧ ((slotList s).map Prod.fst).Nodup ∧
    nMemory ∉ (slotList s).map Prod.fst ∧ nVerbose ∉ (slotList s).map Prod.fst := by
  obtain ⟨_, _, _, _, c5, c6, c7, c8, c9, _, c11, c12, c13, c14, c15, c16⟩ := clean_names
  unfold slotList
  cases s.nerve with
  | none =>
      simp only [List.map_cons, List.map_nil, List.append_nil]
      refine ⟨?_, by decide +kernel, by decide +kernel, by decide +kernel⟩
      intro m hm
      simp only [List.mem_cons, List.not_mem_nil, or_false] at hm
      rcases hm with rfl | rfl | rfl | rfl | rfl | rfl <;> assumption
  | some t =>
      simp only [List.map_cons, List.map_nil, List.cons_append, List.nil_append]
      refine ⟨?_, by decide +kernel, by decide +kernel, by decide +kernel⟩
      intro m hm
      simp only [List.mem_cons, List.not_mem_nil, or_false] at hm
      rcases hm with rfl | rfl | rfl | rfl | rfl | rfl | rfl | rfl | rfl <;> assumption

theorem flat_replace (path : Name) (a : A) (n : Name) (w w' : Val A) (hr : Replaces path a n w w') (L : List (Name × Val A)) (hnd : (L.map Prod.fst).Nodup)
    (hmem : (n, w) ∈ L) (ho : ∀ m ∈ L.map Prod.fst, m ≠ n → m ≠ path ∧ ∀ q, m ++ sep ++ q ≠ path) :
    plainParams ((L.map fun p => if p.1 = n then (n, w') else p).flatMap ent) = assign path a (plainParams (L.flatMap ent)) ∧
    ((L.map fun p => if p.1 = n then (n, w') else p).flatMap ent).map Prod.fst = (L.flatMap ent).map Prod.fst := by
  have other : ∀ p : Name × Val A, p.1 ≠ path → (∀ q, p.1 ++ sep ++ q ≠ path) → assign path a (plainParams (ent p)) = plainParams (ent p) := by
    intro p h1 h2
    refine assign_absent _ _ _ (plain_name _ (· ≠ path) fun q hq => ?_)
    rw [ent, List.mem_cons] at hq
    rcases hq with rfl | hq
    · exact h1
    · obtain ⟨r, _, rfl⟩ := List.mem_map.1 hq
      exact h2 _
  have absent : ∀ L : List (Name × Val A), n ∉ L.map Prod.fst → (∀ m ∈ L.map Prod.fst, m ≠ n → m ≠ path ∧ ∀ q, m ++ sep ++ q ≠ path) →
      (L.map fun p => if p.1 = n then (n, w') else p) = L ∧ assign path a (plainParams (L.flatMap ent)) = plainParams (L.flatMap ent) := by
    intro L
    induction L with
    | nil => intros; exact ⟨rfl, rfl⟩
    | cons p L ih =>
        intro hn ho
        simp only [List.map_cons, List.mem_cons, not_or] at hn
        obtain ⟨i1, i2⟩ := ih hn.2 fun m hm => ho m (by simp only [List.map_cons, List.mem_cons]; exact .inr hm)
        have hp := ho p.1 (by simp) (Ne.symm hn.1)
        refine ⟨?_, ?_⟩
        · rw [List.map_cons, i1, if_neg (Ne.symm hn.1)]
        · rw [List.flatMap_cons, plain_append, assign_append, i2, other p hp.1 hp.2]
  induction L with
  | nil => cases hmem
  | cons p L ih =>
      rw [List.map_cons, List.nodup_cons] at hnd
      have ho' : ∀ m ∈ L.map Prod.fst, m ≠ n → m ≠ path ∧ ∀ q, m ++ sep ++ q ≠ path := fun m hm => ho m (by simp only [List.map_cons, List.mem_cons]; exact .inr hm)
      by_cases e : p.1 = n
      · have hp : p = (n, w) := by
          rcases List.mem_cons.1 hmem with h | h
          · exact h.symm
          · exact absurd (List.mem_map.2 ⟨_, h, rfl⟩) (e ▸ hnd.1)
        subst hp
        obtain ⟨i1, i2⟩ := absent L hnd.1 ho'
        have hent : ∀ v : Val A, ent (n, v) = [(n, v)] ++ (getParams v).map fun q => (n ++ sep ++ q.1, q.2) := fun _ => rfl
        rw [List.map_cons, i1, if_pos rfl, List.flatMap_cons, List.flatMap_cons]
        refine ⟨?_, ?_⟩
        · rw [plain_append, plain_append, assign_append, i2, hent, hent, plain_append, plain_append, assign_append, hr.here, hr.below]
        · rw [List.map_append, List.map_append, hent, hent, List.map_append, List.map_append, prefixed_names n _ _ hr.names]
          rfl
      · have hmem' : (n, w) ∈ L := by
          rcases List.mem_cons.1 hmem with h | h
          · exact absurd (congrArg Prod.fst h).symm e
          · exact h
        obtain ⟨i1, i2⟩ := ih hnd.2 hmem' ho'
        have hp := ho p.1 (by simp) e
        rw [List.map_cons, if_neg e, List.flatMap_cons, List.flatMap_cons]
        refine ⟨?_, ?_⟩
        · rw [plain_append, plain_append, assign_append, i1, other p hp.1 hp.2]
        · rw [List.map_append, List.map_append, i2]

/-- Names other than the one concerned, as in `set_plain`. -/
theorem other_direct (n m : Name) (hn : Clean n) (hm : Clean m) (h : m ≠ n) : m ≠ n ∧ ∀ q, m ++ sep ++ q ≠ n :=
  ⟨h, fun q e => by
    have := splitKey_sep m q hm
    rw [e, splitKey_none n hn] at this
    cases this⟩

theorem other_nested (n m p : Name) (hn : Clean n) (hm : Clean m) (h : m ≠ n) : m ≠ n ++ sep ++ p ∧ ∀ q, m ++ sep ++ q ≠ n ++ sep ++ p :=
  ⟨fun e => (by
    have := splitKey_sep n p hn
    rw [← e, splitKey_none m hm] at this
    cases this), fun q e => by
    have := splitKey_sep n p hn
    rw [← e, splitKey_sep m q hm] at this
    cases this
    exact h rfl⟩

theorem replaces_nested (n p : Name) (w w' : Val A) (a b : A) (hb : (p, Val.atom b) ∈ getParams w) (h1 : (getParams w').map Prod.fst = (getParams w).map Prod.fst)
    (h2 : plainParams (getParams w') = assign p a (plainParams (getParams w))) : Replaces (n ++ sep ++ p) a n w w' := by
  refine ⟨?_, ?_, h1⟩
  · have nw : plainParams [(n, w)] = [] := by
      cases w with
      | atom => simp [getParams] at hb
      | steps => rfl
      | est => rfl
    have nw' : plainParams [(n, w')] = [] := by
      cases w' with
      | atom =>
          rw [getParams, List.map_nil] at h1
          have := List.map_eq_nil_iff.1 h1.symm
          rw [this] at hb
          cases hb
      | steps => rfl
      | est => rfl
    rw [nw, nw']
    rfl
  · rw [plain_prefixed, plain_prefixed, h2]
    unfold assign
    rw [List.map_map, List.map_map]
    refine List.map_congr_left fun q _ => ?_
    simp only [Function.comp_apply]
    by_cases e : q.1 = p
    · rw [if_pos e, if_pos (by rw [e])]
    · rw [if_neg e, if_neg fun h => e (List.append_cancel_left h)]

theorem mem_ent_nested (L : List (Name × Val A)) (hc : ∀ m ∈ L.map Prod.fst, Clean m) (n sub : Name) (hn : Clean n) (v : Val A) (h : (n ++ sep ++ sub, v) ∈ L.flatMap ent) :
    ∃ w, (n, w) ∈ L ∧ (sub, v) ∈ getParams w := by
  obtain ⟨p, hp, h⟩ := List.mem_flatMap.1 h
  have hcl := hc p.1 (List.mem_map.2 ⟨p, hp, rfl⟩)
  rw [ent, List.mem_cons] at h
  have hs := splitKey_sep n sub hn
  rcases h with h | h
  · have : p.1 = n ++ sep ++ sub := (congrArg Prod.fst h).symm
    rw [← this, splitKey_none _ hcl] at hs
    cases hs
  · obtain ⟨q, hq, e⟩ := List.mem_map.1 h
    simp only [Prod.mk.injEq] at e
    rw [← e.1, splitKey_sep _ _ hcl] at hs
    simp only [Option.some.injEq, Prod.mk.injEq] at hs
    refine ⟨p.2, ?_, ?_⟩
    · rw [← hs.1]; exact hp
    · rw [← hs.2, ← e.2]; exact hq

theorem mem_ent_direct (L : List (Name × Val A)) (hc : ∀ m ∈ L.map Prod.fst, Clean m) (n : Name) (hn : Clean n) (v : Val A) (h : (n, v) ∈ L.flatMap ent) : (n, v) ∈ L := by
  obtain ⟨p, hp, h⟩ := List.mem_flatMap.1 h
  have hcl := hc p.1 (List.mem_map.2 ⟨p, hp, rfl⟩)
  rw [ent, List.mem_cons] at h
  rcases h with h | h
  · exact h ▸ hp
  · obtain ⟨q, hq, e⟩ := List.mem_map.1 h
    simp only [Prod.mk.injEq] at e
    have hs := splitKey_sep p.1 q.1 hcl
    rw [e.1, splitKey_none _ hn] at hs
    cases hs

/-- The same pipeline up to cover, clusterer and the last step. -/
def Elsewhere (s s' : Slots A) : Prop := ∃ cv cl nv, s' = { s with cover := cv, clusterer := cl, nerve := nv }

theorem Elsewhere.trans {s s' s'' : Slots A} (h : Elsewhere s s') (h' : Elsewhere s' s'') : Elsewhere s s'' := by
  obtain ⟨a, b, c, rfl⟩ := h
  obtain ⟨a', b', c', rfl⟩ := h'
  exact ⟨a', b', c', rfl⟩

/-- What the slots need to keep. -/
structure Good (s : Slots A) : Prop where
  cover : WellNamed s.cover
  clusterer : WellNamed s.clusterer
  distinct : ∀ v ∈ slotValues s, DistinctNames v

/-- The names of the parameters which are set. -/
def Form (p : Name) : Prop := coverPrefix <+: p ∨ clustererPrefix <+: p ∨ p = nMinInter ∨ p = nContract

/-- One slot is replaced. -/
theorem slot_replaced (s s' : Slots A) (path : Name) (a : A) (n : Name) (w w' : Val A) (hw : (n, w) ∈ slotList s)
    (hs : slotList s' = (slotList s).map fun p => if p.1 = n then (n, w') else p) (hg : globalsOf s' = globalsOf s) (hr : Replaces path a n w w')
    (ho : ∀ m, Clean m → m ≠ n → m ≠ path ∧ ∀ q, m ++ sep ++ q ≠ path) :
    (reported s').map Prod.fst = (reported s).map Prod.fst ∧ plainParams (reported s') = assign path a (plainParams (reported s)) := by
  obtain ⟨n1, n2, n3, n4⟩ := slot_names s
  obtain ⟨_, _, _, _, _, _, _, _, _, _, _, _, _, _, c15, c16⟩ := clean_names
  obtain ⟨f1, f2⟩ := flat_replace path a n w w' hr (slotList s) n2 hw fun m hm => ho m (n1 m hm)
  have hn : n ∈ (slotList s).map Prod.fst := List.mem_map.2 ⟨_, hw, rfl⟩
  have hgl : assign path a (plainParams (globalsOf s)) = plainParams (globalsOf s) := by
    refine assign_absent _ _ _ (plain_name _ (· ≠ path) fun p hp => ?_)
    simp only [globalsOf, List.mem_cons, List.not_mem_nil, or_false] at hp
    rcases hp with rfl | rfl
    · exact (ho _ c15 fun e => n3 (e ▸ hn)).1
    · exact (ho _ c16 fun e => n4 (e ▸ hn)).1
  rw [reported_eq, reported_eq, hs, hg]
  refine ⟨?_, ?_⟩
  · rw [List.map_append, List.map_append, f2]
  · rw [plain_append, plain_append, assign_append, f1, hgl]

theorem slot_unique (s : Slots A) (n : Name) (v w : Val A) (h1 : (n, v) ∈ slotList s) (h2 : (n, w) ∈ slotList s) : v = w := by
  have := List.inj_on_of_nodup_map (slot_names s).2.1 h1 h2 rfl
  exact congrArg Prod.snd this

/-- One call of `set_params`. -/
theorem push_one (s : Slots A) (h : Good s) (p : Name) (hp : Form p) (a b : A) (hb : (p, Val.atom b) ∈ reported s) :
    ∃ s', setMapperParams (p.length + 4) (mapperPipeline s) [(p, .atom a)] = (mapperPipeline s', none) ∧ Elsewhere s s' ∧ Good s' ∧
      (reported s').map Prod.fst = (reported s).map Prod.fst ∧ plainParams (reported s') = assign p a (plainParams (reported s)) := by
  obtain ⟨n1, n2, n3, n4⟩ := slot_names s
  obtain ⟨_, _, _, _, c5, c6, c7, c8, c9, _, c11, c12, c13, c14, c15, c16⟩ := clean_names
  have hb' : (p, Val.atom b) ∈ globalsOf s ∨ (p, Val.atom b) ∈ (slotList s).flatMap ent := by
    rw [reported_eq, List.mem_append] at hb
    exact hb
  have hglob : ∀ q, (q, Val.atom b) ∈ globalsOf s → q = nMemory ∨ q = nVerbose := by
    intro q hq
    simp only [globalsOf, List.mem_cons, List.not_mem_nil, or_false, Prod.mk.injEq] at hq
    rcases hq with h | h
    · exact .inl h.1
    · exact .inr h.1
  have nest : ∀ n sub, Clean n → p = n ++ sep ++ sub → (n ++ sep ++ sub, Val.atom b) ∈ (slotList s).flatMap ent := by
    intro n sub hn e
    rw [← e]
    rcases hb' with h | h
    · have hsp := splitKey_sep n sub hn
      rw [← e] at hsp
      rcases hglob p h with h | h
      · rw [h, splitKey_none _ c15] at hsp
        cases hsp
      · rw [h, splitKey_none _ c16] at hsp
        cases hsp
    · exact h
  rcases hp with ⟨sub, hp⟩ | ⟨sub, hp⟩ | hp | hp
  · -- a parameter of the cover
    have e : p = nCover ++ sep ++ sub := hp.symm
    obtain ⟨w, hw, hsub⟩ := mem_ent_nested _ n1 nCover sub c7 _ (nest nCover sub c7 e)
    have hcov : (nCover, s.cover) ∈ slotList s := by simp [slotList]
    cases slot_unique s nCover w s.cover hw hcov
    obtain ⟨v', g1, g2, g3, g4⟩ := set_plain (p.length + 1) s.cover h.cover sub (by rw [e]; simp only [List.length_append]; omega) a b hsub
    have hset := (C51_nested (p.length + 1) s sub (.atom a)).2.2.1
    have ht : "cover__".toList ++ sub = p := by
      rw [e]
      have : "cover__".toList = nCover ++ sep := by decide +kernel
      rw [this]
    rw [ht, g1] at hset
    have hd : ∀ v ∈ slotValues { s with cover := v' }, DistinctNames v := by
      intro v hv
      by_cases hvv : v = v'
      · subst hvv
        have := h.distinct s.cover (by simp [slotValues])
        unfold DistinctNames at this ⊢
        rw [g3]
        exact this
      · refine h.distinct v ?_
        simp only [slotValues, List.mem_append, List.mem_cons, List.not_mem_nil, or_false] at hv ⊢
        rcases hv with (h | h | h | h | h | h) | h
        · exact .inl (.inl h)
        · exact .inl (.inr (.inl h))
        · exact absurd h hvv
        · exact .inl (.inr (.inr (.inr (.inl h))))
        · exact .inl (.inr (.inr (.inr (.inr (.inl h)))))
        · exact .inl (.inr (.inr (.inr (.inr (.inr h)))))
        · exact .inr h
    refine ⟨{ s with cover := v' }, hset, ⟨v', s.clusterer, s.nerve, rfl⟩, ⟨g2, h.clusterer, hd⟩, ?_⟩
    rw [e]
    refine slot_replaced s _ _ a nCover s.cover v' hcov ?_ rfl (replaces_nested nCover sub _ _ a b hsub g3 g4) fun m hm hne => other_nested nCover m sub c7 hm hne
    unfold slotList
    cases s.nerve <;> simp [nScaler, nFilter, nCover, nPrepr, nClusterer, nPrefer, nMinInter, nStore, nContract]
  · -- a parameter of the clusterer
    have e : p = nClusterer ++ sep ++ sub := hp.symm
    obtain ⟨w, hw, hsub⟩ := mem_ent_nested _ n1 nClusterer sub c9 _ (nest nClusterer sub c9 e)
    have hcov : (nClusterer, s.clusterer) ∈ slotList s := by simp [slotList]
    cases slot_unique s nClusterer w s.clusterer hw hcov
    obtain ⟨v', g1, g2, g3, g4⟩ := set_plain (p.length + 2) s.clusterer h.clusterer sub (by rw [e]; simp only [List.length_append]; omega) a b hsub
    have hset := (C51_nested (p.length + 2) s sub (.atom a)).2.2.2.2
    have ht : "clusterer__".toList ++ sub = p := by
      rw [e]
      have : "clusterer__".toList = nClusterer ++ sep := by decide +kernel
      rw [this]
    rw [ht, g1] at hset
    have hd : ∀ v ∈ slotValues { s with clusterer := v' }, DistinctNames v := by
      intro v hv
      by_cases hvv : v = v'
      · subst hvv
        have := h.distinct s.clusterer (by simp [slotValues])
        unfold DistinctNames at this ⊢
        rw [g3]
        exact this
      · refine h.distinct v ?_
        simp only [slotValues, List.mem_append, List.mem_cons, List.not_mem_nil, or_false] at hv ⊢
        rcases hv with (h | h | h | h | h | h) | h
        · exact .inl (.inl h)
        · exact .inl (.inr (.inl h))
        · exact .inl (.inr (.inr (.inl h)))
        · exact .inl (.inr (.inr (.inr (.inl h))))
        · exact absurd h hvv
        · exact .inl (.inr (.inr (.inr (.inr (.inr h)))))
        · exact .inr h
    refine ⟨{ s with clusterer := v' }, hset, ⟨s.cover, v', s.nerve, rfl⟩, ⟨h.cover, g2, hd⟩, ?_⟩
    rw [e]
    refine slot_replaced s _ _ a nClusterer s.clusterer v' hcov ?_ rfl (replaces_nested nClusterer sub _ _ a b hsub g3 g4) fun m hm hne => other_nested nClusterer m sub c9 hm hne
    unfold slotList
    cases s.nerve <;> simp [nScaler, nFilter, nCover, nPrepr, nClusterer, nPrefer, nMinInter, nStore, nContract]
  · -- `min_intersection`
    subst hp
    have hin : (nMinInter, Val.atom b) ∈ slotList s := by
      rcases hb' with h | h
      · rcases hglob _ h with h | h
        · exact absurd h (by decide +kernel)
        · exact absurd h (by decide +kernel)
      · exact mem_ent_direct _ n1 nMinInter c12 _ h
    have ht : "min_intersection".toList = nMinInter := name_texts.2.2.2.2.2.2.2.2.2.1
    obtain ⟨t, hn⟩ : ∃ t, s.nerve = some t := by
      cases hn : s.nerve with
      | some t => exact ⟨t, rfl⟩
      | none =>
          have : nMinInter ∈ (slotList s).map Prod.fst := List.mem_map.2 ⟨_, hin, rfl⟩
          simp only [slotList, hn, List.append_nil, List.map_cons, List.map_nil] at this
          exact absurd this (by decide +kernel)
    have hset := C51_set (nMinInter.length + 1) s [(nMinInter, .atom a)] (by
      intro q hq
      rw [List.mem_singleton] at hq
      subst hq
      exact ⟨"min_intersection", by rw [hn, Option.isSome_some]; decide +kernel, ht.symm⟩)
    have hafter : afterSet s [(nMinInter, .atom a)] = { s with nerve := some (.atom a, t.2.1, t.2.2) } := by
      have hne : ∀ str : String, str.toList ≠ nMinInter → ∀ old : Val A, newValue [(nMinInter, .atom a)] str old = old := fun str hs old => by
        simp only [newValue, List.foldl_cons, List.foldl_nil]
        exact if_neg fun e => hs e.symm
      have heq : ∀ old : Val A, newValue [(nMinInter, .atom a)] "min_intersection" old = .atom a := fun old => by
        simp only [newValue, List.foldl_cons, List.foldl_nil]
        exact if_pos ht.symm
      unfold afterSet
      rw [hn, Option.map_some, heq, hne "memory" (by decide +kernel), hne "verbose" (by decide +kernel), hne "scaler" (by decide +kernel), hne "filter_func" (by decide +kernel),
        hne "cover" (by decide +kernel), hne "clustering_preprocessing" (by decide +kernel), hne "clusterer" (by decide +kernel), hne "n_jobs" (by decide +kernel),
        hne "parallel_backend_prefer" (by decide +kernel), hne "store_edge_elements" (by decide +kernel), hne "contract_nodes" (by decide +kernel)]
    rw [hafter] at hset
    have hmi : (nMinInter, t.1) ∈ slotList s := by simp [slotList, hn]
    have ht1 : t.1 = .atom b := slot_unique s _ _ _ hmi hin
    refine ⟨_, hset, ⟨s.cover, s.clusterer, _, rfl⟩, ⟨h.cover, h.clusterer, ?_⟩, ?_⟩
    · intro v hv
      simp only [slotValues, List.mem_append, List.mem_cons, List.not_mem_nil, or_false] at hv
      have hd := h.distinct
      simp only [slotValues, hn, List.mem_append, List.mem_cons, List.not_mem_nil, or_false] at hd
      rcases hv with hv | rfl | hv
      · exact hd v (.inl hv)
      · exact List.nodup_nil
      · exact hd v (.inr (.inr hv))
    · refine slot_replaced s _ _ a nMinInter (.atom b) (.atom a) hin ?_ rfl ⟨by simp [plainParams, plain, assign], rfl, rfl⟩ fun m hm hne => other_direct nMinInter m c12 hm hne
      simp [slotList, hn, nScaler, nFilter, nCover, nPrepr, nClusterer, nPrefer, nMinInter, nStore, nContract]
  · -- `contract_nodes`
    subst hp
    have hin : (nContract, Val.atom b) ∈ slotList s := by
      rcases hb' with h | h
      · rcases hglob _ h with h | h
        · exact absurd h (by decide +kernel)
        · exact absurd h (by decide +kernel)
      · exact mem_ent_direct _ n1 nContract c14 _ h
    have ht : "contract_nodes".toList = nContract := name_texts.2.2.2.2.2.2.2.2.2.2.2.1
    obtain ⟨t, hn⟩ : ∃ t, s.nerve = some t := by
      cases hn : s.nerve with
      | some t => exact ⟨t, rfl⟩
      | none =>
          have : nContract ∈ (slotList s).map Prod.fst := List.mem_map.2 ⟨_, hin, rfl⟩
          simp only [slotList, hn, List.append_nil, List.map_cons, List.map_nil] at this
          exact absurd this (by decide +kernel)
    have hset := C51_set (nContract.length + 1) s [(nContract, .atom a)] (by
      intro q hq
      rw [List.mem_singleton] at hq
      subst hq
      exact ⟨"contract_nodes", by rw [hn, Option.isSome_some]; decide +kernel, ht.symm⟩)
    have hafter : afterSet s [(nContract, .atom a)] = { s with nerve := some (t.1, t.2.1, .atom a) } := by
      have hne : ∀ str : String, str.toList ≠ nContract → ∀ old : Val A, newValue [(nContract, .atom a)] str old = old := fun str hs old => by
        simp only [newValue, List.foldl_cons, List.foldl_nil]
        exact if_neg fun e => hs e.symm
      have heq : ∀ old : Val A, newValue [(nContract, .atom a)] "contract_nodes" old = .atom a := fun old => by
        simp only [newValue, List.foldl_cons, List.foldl_nil]
        exact if_pos ht.symm
      unfold afterSet
      rw [hn, Option.map_some, heq, hne "memory" (by decide +kernel), hne "verbose" (by decide +kernel), hne "scaler" (by decide +kernel), hne "filter_func" (by decide +kernel),
        hne "cover" (by decide +kernel), hne "clustering_preprocessing" (by decide +kernel), hne "clusterer" (by decide +kernel), hne "n_jobs" (by decide +kernel),
        hne "parallel_backend_prefer" (by decide +kernel), hne "store_edge_elements" (by decide +kernel), hne "min_intersection" (by decide +kernel)]
    rw [hafter] at hset
    have hmi : (nContract, t.2.2) ∈ slotList s := by simp [slotList, hn]
    have ht1 : t.2.2 = .atom b := slot_unique s _ _ _ hmi hin
    refine ⟨_, hset, ⟨s.cover, s.clusterer, _, rfl⟩, ⟨h.cover, h.clusterer, ?_⟩, ?_⟩
    · intro v hv
      simp only [slotValues, List.mem_append, List.mem_cons, List.not_mem_nil, or_false] at hv
      have hd := h.distinct
      simp only [slotValues, hn, List.mem_append, List.mem_cons, List.not_mem_nil, or_false] at hd
      rcases hv with hv | hv | hv | rfl
      · exact hd v (.inl hv)
      · exact hd v (.inr (.inl hv))
      · exact hd v (.inr (.inr (.inl hv)))
      · exact List.nodup_nil
    · refine slot_replaced s _ _ a nContract (.atom b) (.atom a) hin ?_ rfl ⟨by simp [plainParams, plain, assign], rfl, rfl⟩ fun m hm hne => other_direct nContract m c14 hm hne
      simp [slotList, hn, nScaler, nFilter, nCover, nPrepr, nClusterer, nPrefer, nMinInter, nStore, nContract]

end Slots

section History

variable {A G C N T H M : Type}

theorem lookup_widget (w : List (Name × A)) (n : Name) : widgetValue w n = w.lookup n := by
  induction w with
  | nil => rfl
  | cons p w ih =>
      unfold widgetValue at ih ⊢
      rw [List.find?_cons, List.lookup_cons]
      by_cases e : p.1 = n
      · subst e
        simp
      · rw [decide_eq_false e, beq_false_of_ne (Ne.symm e)]
        exact ih

theorem lookup_mem (w : List (Name × A)) (n : Name) (a : A) (h : w.lookup n = some a) : (n, a) ∈ w := by
  induction w with
  | nil => cases h
  | cons p w ih =>
      rw [List.lookup_cons] at h
      by_cases e : n = p.1
      · subst e
        rw [beq_self_eq_true] at h
        cases h
        exact List.mem_cons_self
      · rw [beq_false_of_ne e] at h
        exact List.mem_cons_of_mem _ (ih h)

theorem lookup_isSome (w : List (Name × A)) (n : Name) : (∃ a, w.lookup n = some a) ↔ n ∈ w.map Prod.fst := by
  induction w with
  | nil => simp
  | cons p w ih =>
      rw [List.lookup_cons, List.map_cons, List.mem_cons]
      by_cases e : n = p.1
      · subst e
        rw [beq_self_eq_true]
        exact ⟨fun _ => .inl rfl, fun _ => ⟨p.2, rfl⟩⟩
      · rw [beq_false_of_ne e]
        simp only [e, false_or]
        exact ih

theorem enter_names (w : List (Name × A)) (n : Name) (a : A) : (enter w n a).map Prod.fst = w.map Prod.fst := by
  unfold enter
  rw [List.map_map]
  refine List.map_congr_left fun p _ => ?_
  simp only [Function.comp_apply]
  split <;> rfl

theorem lookup_enter (w : List (Name × A)) (n m : Name) (a : A) :
    (enter w n a).lookup m = if m = n then (w.lookup m).map fun _ => a else w.lookup m := by
  induction w with
  | nil => simp [enter]
  | cons p w ih =>
      have : enter (p :: w) n a = (if p.1 = n then (p.1, a) else p) :: enter w n a := rfl
      rw [this, List.lookup_cons, List.lookup_cons, ih]
      have hf : (if p.1 = n then (p.1, a) else p).1 = p.1 := by split <;> rfl
      rw [hf]
      by_cases e : m = p.1
      · subst e
        rw [beq_self_eq_true]
        by_cases e' : p.1 = n
        · simp [e']
        · simp [e']
      · rw [beq_false_of_ne e]

theorem plain_names_mem (l : List (Name × Val A)) (n : Name) (a : A) : (n, a) ∈ plainParams l ↔ (n, .atom a) ∈ l := by
  unfold plainParams
  rw [List.mem_filterMap]
  constructor
  · rintro ⟨⟨m, v⟩, hp, e⟩
    cases v with
    | atom b =>
        simp only [plain, Option.some.injEq, Prod.mk.injEq] at e
        obtain ⟨rfl, rfl⟩ := e
        exact hp
    | steps => cases e
    | est => cases e
  · intro h
    exact ⟨_, h, rfl⟩

/-- All calls of `set_params`. -/
theorem push_all (w : List (Name × A)) (names : List Name) (hf : ∀ p ∈ names, Form p) (hw : ∀ p ∈ names, p ∈ w.map Prod.fst) (s : Slots A) (h : Good s)
    (hin : ∀ p ∈ names, p ∈ (plainParams (reported s)).map Prod.fst) :
    ∃ s', push w names (mapperPipeline s) = (mapperPipeline s', none) ∧ Elsewhere s s' ∧ Good s' ∧ (reported s').map Prod.fst = (reported s).map Prod.fst ∧
      plainParams (reported s') = (plainParams (reported s)).map fun q => if q.1 ∈ names then shown w q else q := by
  induction names generalizing s with
  | nil => exact ⟨s, rfl, ⟨_, _, _, rfl⟩, h, rfl, by simp⟩
  | cons p names ih =>
      obtain ⟨a, ha⟩ := (lookup_isSome w p).2 (hw p (by simp))
      obtain ⟨⟨p', b⟩, hb, e⟩ := List.mem_map.1 (hin p (by simp))
      simp only at e
      subst e
      obtain ⟨s1, g1, g2, g3, g4, g5⟩ := push_one s h p' (hf p' (by simp)) a b ((plain_names_mem _ _ _).1 hb)
      have hnames : (plainParams (reported s1)).map Prod.fst = (plainParams (reported s)).map Prod.fst := by
        rw [g5]
        exact enter_names _ p' a
      obtain ⟨s2, k1, k2, k3, k4, k5⟩ := ih (fun q hq => hf q (by simp [hq])) (fun q hq => hw q (by simp [hq])) s1 g3 (fun q hq => by
        rw [hnames]
        exact hin q (by simp [hq]))
      refine ⟨s2, ?_, g2.trans k2, k3, k4.trans g4, ?_⟩
      · rw [push, lookup_widget, ha]
        simp only [g1]
        exact k1
      · rw [k5, g5]
        unfold assign
        rw [List.map_map]
        refine List.map_congr_left fun q _ => ?_
        simp only [Function.comp_apply]
        by_cases e : q.1 = p'
        · rw [if_pos e, if_pos (show q.1 ∈ p' :: names by rw [e]; simp)]
          have : shown w q = (q.1, a) := by
            unfold shown
            rw [e, ha]
            rfl
          rw [this]
          split
          · unfold shown
            simp only [e, ha]
            rfl
          · rfl
        · rw [if_neg e]
          by_cases e' : q.1 ∈ names
          · rw [if_pos e', if_pos (by simp [e'])]
          · rw [if_neg e', if_neg (by simp [e, e'])]

/-- The parts which an update of the figure does not touch. -/
theorem newGraph_frame (e : Engine A G C N T H M) (st : State A G C N T H M) :
    (newGraph e st).pipeline = st.pipeline ∧ (newGraph e st).widgets = st.widgets ∧ (newGraph e st).pushed = st.pushed ∧ (newGraph e st).observed = st.observed ∧
    (newGraph e st).clone = st.clone ∧ (newGraph e st).user = st.user ∧ (newGraph e st).color = st.color ∧ (newGraph e st).colored = st.colored := by
  unfold newGraph
  split
  · exact ⟨rfl, rfl, rfl, rfl, rfl, rfl, rfl, rfl⟩
  · split
    · exact ⟨rfl, rfl, rfl, rfl, rfl, rfl, rfl, rfl⟩
    · unfold draw drawTraces
      split
      · split
        · exact ⟨rfl, rfl, rfl, rfl, rfl, rfl, rfl, rfl⟩
        · dsimp only
          split
          · exact ⟨rfl, rfl, rfl, rfl, rfl, rfl, rfl, rfl⟩
          · exact ⟨rfl, rfl, rfl, rfl, rfl, rfl, rfl, rfl⟩
      · dsimp only
        split
        · exact ⟨rfl, rfl, rfl, rfl, rfl, rfl, rfl, rfl⟩
        · exact ⟨rfl, rfl, rfl, rfl, rfl, rfl, rfl, rfl⟩

theorem update_frame (e : Engine A G C N T H M) (st : State A G C N T H M) :
    (update e st).pipeline = (push st.widgets st.pushed st.pipeline).1 ∧ (update e st).widgets = st.widgets ∧ (update e st).pushed = st.pushed ∧
    (update e st).observed = st.observed ∧ (update e st).clone = st.clone ∧
    (update e st).user = (if st.clone then st.user else (push st.widgets st.pushed st.pipeline).1) ∧ (update e st).color = st.color ∧ (update e st).colored = st.colored := by
  unfold update
  split
  · rename_i v er he
    rw [he]
    exact ⟨rfl, rfl, rfl, rfl, rfl, rfl, rfl, rfl⟩
  · rename_i v he
    rw [he]
    obtain ⟨h1, h2, h3, h4, h5, h6, h7, h8⟩ := newGraph_frame e (st.withPipeline v)
    rw [h1, h2, h3, h4, h5, h6, h7, h8]
    exact ⟨rfl, rfl, rfl, rfl, rfl, rfl, rfl, rfl⟩

/-- The names of widgets. -/
theorem widgets_names (kind : A → Kind) (l : List (Name × Val A)) :
    (widgetsPerParam kind l).map Prod.fst = (l.filter fun p => intFloatStr (kindOf kind p.2)).map Prod.fst := by
  unfold widgetsPerParam
  induction l with
  | nil => rfl
  | cons p l ih =>
      obtain ⟨n, v⟩ := p
      cases v with
      | atom a =>
          have h1 : widgetOf kind (n, .atom a) = widgetFor n a (kind a) := rfl
          have h2 : kindOf kind (.atom a) = kind a := rfl
          rw [List.filterMap_cons, List.filter_cons, h1, h2]
          generalize kind a = k
          cases k <;> simp [intFloatStr, widgetFor, ih]
      | steps k =>
          rw [List.filterMap_cons, List.filter_cons]
          simp [intFloatStr, widgetOf, kindOf, ih]
      | est x y z =>
          rw [List.filterMap_cons, List.filter_cons]
          simp [intFloatStr, widgetOf, kindOf, ih]

theorem mem_widgets (kind : A → Kind) (l : List (Name × Val A)) (n : Name) (a : A) : (n, a) ∈ widgetsPerParam kind l ↔ (n, .atom a) ∈ l ∧ kind a ≠ .other := by
  unfold widgetsPerParam
  rw [List.mem_filterMap]
  constructor
  · rintro ⟨⟨m, v⟩, hp, e⟩
    cases v with
    | atom b =>
        simp only [widgetOf] at e
        cases hk : kind b <;> rw [hk] at e <;> simp only [widgetFor, Option.some.injEq, Prod.mk.injEq, reduceCtorEq] at e <;> obtain ⟨rfl, rfl⟩ := e <;>
          exact ⟨hp, by rw [hk]; decide⟩
    | steps => cases e
    | est => cases e
  · rintro ⟨h, hk⟩
    refine ⟨_, h, ?_⟩
    simp only [widgetOf]
    cases hk' : kind a with
    | other => exact absurd hk' hk
    | _ => rfl

theorem reported_distinct (s : Slots A) (h : ∀ v ∈ slotValues s, DistinctNames v) : ((reported s).map Prod.fst).Nodup := by
  obtain ⟨l, h1, h2⟩ := C51_get s
  exact (h2.map Prod.fst).nodup_iff.1 (C51_distinct s h l h1)

/-- What holds at all times. -/
structure Inv (s0 : Slots A) (names : List Name) (st : State A G C N T H M) : Prop where
  pushed : st.pushed = names
  observed : st.observed = names
  widgets : st.widgets.map Prod.fst = names
  pipeline : ∃ s, st.pipeline = mapperPipeline s ∧ Elsewhere s0 s ∧ Good s ∧ (reported s).map Prod.fst = (reported s0).map Prod.fst ∧
    plainParams (reported s) = (plainParams (reported s0)).map (shown st.widgets)

theorem inv_change [DecidableEq A] (e : Engine A G C N T H M) (s0 : Slots A) (names : List Name) (hf : ∀ p ∈ names, Form p)
    (hin : ∀ p ∈ names, p ∈ (plainParams (reported s0)).map Prod.fst) (st : State A G C N T H M) (hst : Inv s0 names st) (n : Name) (a : A) : Inv s0 names (change e st n a) := by
  unfold change
  split
  · exact hst
  · rename_i old hold
    split
    · exact hst
    · dsimp only
      have hn : n ∈ names := by
        rw [lookup_widget] at hold
        rw [← hst.widgets]
        exact (lookup_isSome _ _).1 ⟨old, hold⟩
      rw [if_pos (by rw [hst.observed]; exact hn)]
      obtain ⟨s, p1, p2, p3, p4, p5⟩ := hst.pipeline
      have hw' : (enter st.widgets n a).map Prod.fst = names := by rw [enter_names, hst.widgets]
      have hnames : (plainParams (reported s)).map Prod.fst = (plainParams (reported s0)).map Prod.fst := by
        rw [p5, List.map_map]
        rfl
      obtain ⟨s', q1, q2, q3, q4, q5⟩ := push_all (enter st.widgets n a) names hf (fun p hp => by rw [hw']; exact hp) s p3 (fun p hp => by rw [hnames]; exact hin p hp)
      obtain ⟨f1, f2, f3, f4, f5, f6, f7, f8⟩ := update_frame e { st with widgets := enter st.widgets n a }
      refine ⟨by rw [f3]; exact hst.pushed, by rw [f4]; exact hst.observed, by rw [f2]; exact hw', s', ?_, p2.trans q2, q3, q4.trans p4, ?_⟩
      · rw [f1]
        simp only [p1, hst.pushed, q1]
      · rw [q5, p5, f2, List.map_map]
        refine List.map_congr_left fun q _ => ?_
        simp only [Function.comp_apply]
        by_cases hq : q.1 ∈ names
        · rw [if_pos (show (shown st.widgets q).1 ∈ names from hq)]
          obtain ⟨x, hx⟩ := (lookup_isSome (enter st.widgets n a) q.1).2 (by rw [hw']; exact hq)
          unfold shown
          simp only [hx, Option.getD_some]
        · rw [if_neg (show ¬ (shown st.widgets q).1 ∈ names from hq)]
          have h1 : st.widgets.lookup q.1 = none := by
            cases h : st.widgets.lookup q.1 with
            | none => rfl
            | some x => exact absurd ((lookup_isSome _ _).1 ⟨x, h⟩) (by rw [hst.widgets]; exact hq)
          have h2 : (enter st.widgets n a).lookup q.1 = none := by
            cases h : (enter st.widgets n a).lookup q.1 with
            | none => rfl
            | some x => exact absurd ((lookup_isSome _ _).1 ⟨x, h⟩) (by rw [hw']; exact hq)
          unfold shown
          simp only [h1, h2]

theorem plot_ok (kind : A → Kind) (e : Engine A G C N T H M) (clone : Bool) (v : Val A) (st : State A G C N T H M) (h : plot kind e clone v = .ok st) :
    ∃ l g c t n fig, getMapperParams v true = .ok l ∧ e.fit v = .ok g ∧ e.check = .ok c ∧ e.graphData c g = .ok (t, n) ∧ staticFigure e c t n = .ok fig ∧
      st = { clone := clone, user := v, pipeline := v, pushed := pushed kind (groups l), observed := observed kind (groups l), widgets := allWidgets kind (groups l),
             color := c, colored := fig.label.isColors, graph := g, summaries := n, fig := fig, valid := true } := by
  unfold plot at h
  cases h1 : getMapperParams v true with
  | error => rw [h1] at h; cases h
  | ok l =>
      rw [h1, ok_bind] at h
      dsimp only at h
      cases h2 : e.fit v with
      | error => rw [h2] at h; cases h
      | ok g =>
          rw [h2, ok_bind] at h
          cases h3 : e.check with
          | error => rw [h3] at h; cases h
          | ok c =>
              rw [h3, ok_bind] at h
              cases h4 : e.graphData c g with
              | error => rw [h4] at h; cases h
              | ok tn =>
                  rw [h4, ok_bind] at h
                  cases h5 : staticFigure e c tn.1 tn.2 with
                  | error => rw [h5] at h; cases h
                  | ok fig =>
                      rw [h5, ok_bind] at h
                      cases h
                      exact ⟨l, g, c, tn.1, tn.2, fig, rfl, rfl, rfl, h4, h5, rfl⟩

theorem plot_eq (kind : A → Kind) (e : Engine A G C N T H M) (clone : Bool) (v : Val A) (l : List (Name × Val A)) (g : G) (c : C) (t : T) (n : N) (fig : Fig T H M)
    (h1 : getMapperParams v true = .ok l) (h2 : e.fit v = .ok g) (h3 : e.check = .ok c) (h4 : e.graphData c g = .ok (t, n)) (h5 : staticFigure e c t n = .ok fig) :
    plot kind e clone v = .ok
      { clone := clone, user := v, pipeline := v, pushed := pushed kind (groups l), observed := observed kind (groups l),
        widgets := allWidgets kind (groups l), color := c, colored := fig.label.isColors, graph := g, summaries := n, fig := fig, valid := true } := by
  unfold plot
  rw [h1, ok_bind]
  dsimp only
  rw [h2, ok_bind, h3, ok_bind, h4, ok_bind, h5, ok_bind]
  rfl

theorem groups_facts (kind : A → Kind) (s0 : Slots A) (h : Plottable kind s0) (l : List (Name × Val A)) (hp : l.Perm (reported s0)) :
    pushed kind (groups l) = (allWidgets kind (groups l)).map Prod.fst ∧ observed kind (groups l) = (allWidgets kind (groups l)).map Prod.fst ∧
    (∀ n a, (n, a) ∈ allWidgets kind (groups l) ↔ (n, .atom a) ∈ l ∧ kind a ≠ .other ∧ Form n) := by
  have hobs : observed kind (groups l) = (allWidgets kind (groups l)).map Prod.fst := by
    unfold observed allWidgets
    rw [List.map_append, List.map_append, widgets_names, widgets_names, widgets_names]
  refine ⟨?_, hobs, ?_⟩
  · rw [← hobs]
    unfold pushed observed
    congr 2
    congr 1
    refine List.filter_congr fun p hpm => ?_
    obtain ⟨n1, n2, n3, n4⟩ := slot_names s0
    obtain ⟨_, _, _, _, c5, c6, c7, c8, c9, _, c11, c12, c13, c14, c15, c16⟩ := clean_names
    obtain ⟨h1, h2⟩ := List.mem_filter.1 hpm
    have hr : p ∈ globalsOf s0 ++ (slotList s0).flatMap ent := by
      rw [← reported_eq]
      exact hp.mem_iff.1 h1
    rw [Bool.or_eq_true, decide_eq_true_eq, decide_eq_true_eq] at h2
    have hcl : Clean p.1 := by rcases h2 with h2 | h2 <;> rw [h2] <;> assumption
    have hmem : (p.1, p.2) ∈ slotList s0 := by
      rcases List.mem_append.1 hr with hr | hr
      · simp only [globalsOf, List.mem_cons, List.not_mem_nil, or_false] at hr
        rcases hr with rfl | rfl <;> rcases h2 with h2 | h2
        · exact absurd (show nMemory = nMinInter from h2) (by decide +kernel)
        · exact absurd (show nMemory = nContract from h2) (by decide +kernel)
        · exact absurd (show nVerbose = nMinInter from h2) (by decide +kernel)
        · exact absurd (show nVerbose = nContract from h2) (by decide +kernel)
      · exact mem_ent_direct _ n1 p.1 hcl p.2 hr
    have hkind : hasKind kind [.int, .bool, .other] p.2 := by
      cases hn : s0.nerve with
      | none =>
          have : p.1 ∈ (slotList s0).map Prod.fst := List.mem_map.2 ⟨_, hmem, rfl⟩
          simp only [slotList, hn, List.append_nil, List.map_cons, List.map_nil] at this
          rcases h2 with h2 | h2 <;> rw [h2] at this <;> exact absurd this (by decide +kernel)
      | some t =>
          obtain ⟨k1, k2⟩ := h.2.2.2 t hn
          rcases h2 with h2 | h2
          · have : (nMinInter, t.1) ∈ slotList s0 := by simp [slotList, hn]
            rw [h2] at hmem
            rw [slot_unique s0 _ _ _ hmem this]
            exact k1
          · have : (nContract, t.2.2) ∈ slotList s0 := by simp [slotList, hn]
            rw [h2] at hmem
            rw [slot_unique s0 _ _ _ hmem this]
            exact k2
    cases hv : p.2 with
    | atom a =>
        rw [hv] at hkind
        simp only [hasKind, List.mem_cons, List.not_mem_nil, or_false] at hkind
        simp only [kindOf]
        rcases hkind with hk | hk | hk <;> rw [hk] <;> rfl
    | steps => rfl
    | est => rfl
  · intro n a
    unfold allWidgets
    rw [List.mem_append, List.mem_append, mem_widgets, mem_widgets, mem_widgets]
    unfold groups Form
    simp only [List.mem_filter, List.isPrefixOf_iff_prefix, Bool.or_eq_true, decide_eq_true_eq]
    tauto

theorem form_iff (n : Name) : Form n ↔ Adjustable n := by
  unfold Form Adjustable
  have h1 : "cover__".toList = coverPrefix := by decide +kernel
  have h2 : "clusterer__".toList = clustererPrefix := by decide +kernel
  have h3 : "min_intersection".toList = nMinInter := by decide +kernel
  have h4 : "contract_nodes".toList = nContract := by decide +kernel
  rw [h1, h2, h3, h4]

theorem inv_plot (kind : A → Kind) (e : Engine A G C N T H M) (clone : Bool) (s0 : Slots A) (h : Plottable kind s0) (st : State A G C N T H M)
    (hst : plot kind e clone (mapperPipeline s0) = .ok st) :
    Inv s0 (st.widgets.map Prod.fst) st ∧ (∀ p ∈ st.widgets.map Prod.fst, Form p) ∧ ∀ p ∈ st.widgets.map Prod.fst, p ∈ (plainParams (reported s0)).map Prod.fst := by
  obtain ⟨l, g, c, t, n, fig, h1, _, _, _, _, rfl⟩ := plot_ok kind e clone _ st hst
  obtain ⟨l', h1', hperm⟩ := C51_get s0
  rw [h1] at h1'
  cases h1'
  obtain ⟨g1, g2, g3⟩ := groups_facts kind s0 h l hperm
  have hnd := reported_distinct s0 h.2.2.1
  refine ⟨⟨g1, g2, rfl, s0, rfl, ⟨_, _, _, rfl⟩, ⟨h.1, h.2.1, h.2.2.1⟩, rfl, ?_⟩, ?_, ?_⟩
  · conv_lhs => rw [← List.map_id (plainParams (reported s0))]
    refine List.map_congr_left fun q hq => ?_
    obtain ⟨m, b⟩ := q
    unfold shown
    dsimp only [id]
    cases hl : (allWidgets kind (groups l)).lookup m with
    | none => rfl
    | some a =>
        have hm := ((g3 m a).1 (lookup_mem _ _ _ hl)).1
        have hm' := hperm.mem_iff.1 hm
        have hb := (plain_names_mem _ _ _).1 hq
        have := List.inj_on_of_nodup_map hnd hb hm' rfl
        cases this
        rfl
  · intro p hp
    obtain ⟨⟨m, a⟩, hm, rfl⟩ := List.mem_map.1 hp
    exact ((g3 m a).1 hm).2.2
  · intro p hp
    obtain ⟨⟨m, a⟩, hm, rfl⟩ := List.mem_map.1 hp
    exact List.mem_map.2 ⟨(m, a), (plain_names_mem _ _ _).2 (hperm.mem_iff.1 ((g3 m a).1 hm).1), rfl⟩

theorem inv_changes [DecidableEq A] (e : Engine A G C N T H M) (s0 : Slots A) (names : List Name) (hf : ∀ p ∈ names, Form p)
    (hin : ∀ p ∈ names, p ∈ (plainParams (reported s0)).map Prod.fst) (h : List (Name × A)) (st : State A G C N T H M) (hst : Inv s0 names st) : Inv s0 names (changes e st h) := by
  induction h generalizing st with
  | nil => exact hst
  | cons p h ih => exact ih _ (inv_change e s0 names hf hin st hst p.1 p.2)

/-- C108: there is a widget for exactly the parameters of the cover and of the clusterer (at any depth), `min_intersection` and `contract_nodes` which are
numbers, booleans or strings, and it displays the value of the parameter. -/
theorem C108_widgets (kind : A → Kind) (e : Engine A G C N T H M) (clone : Bool) (s0 : Slots A) (h : Plottable kind s0) (st : State A G C N T H M)
    (hst : plot kind e clone (mapperPipeline s0) = .ok st) (n : List Char) (a : A) :
    (n, a) ∈ st.widgets ↔ (∃ l, getMapperParams (mapperPipeline s0) true = .ok l ∧ (n, .atom a) ∈ l) ∧ kind a ≠ .other ∧ Adjustable n := by
  obtain ⟨l, g, c, t, m, fig, h1, _, _, _, _, rfl⟩ := plot_ok kind e clone _ st hst
  obtain ⟨l', h1', hperm⟩ := C51_get s0
  rw [h1] at h1' ⊢
  cases h1'
  obtain ⟨g1, g2, g3⟩ := groups_facts kind s0 h l hperm
  rw [g3, form_iff]
  constructor
  · rintro ⟨a1, a2⟩
    exact ⟨⟨l, rfl, a1⟩, a2⟩
  · rintro ⟨⟨l', e, a1⟩, a2⟩
    cases e
    exact ⟨a1, a2⟩

/-- C108: after any sequence of values entered, whether or not fitting and drawing succeeded, the parameters of `pipeline_` which have a widget have the
values displayed, and the other ones their initial values. -/
theorem C108_params [DecidableEq A] (kind : A → Kind) (e : Engine A G C N T H M) (clone : Bool) (s0 : Slots A) (h : Plottable kind s0) (st : State A G C N T H M)
    (hst : plot kind e clone (mapperPipeline s0) = .ok st) (history : List (List Char × A)) :
    ∃ cover clusterer nerve l0 l,
      (changes e st history).pipeline = mapperPipeline { s0 with cover := cover, clusterer := clusterer, nerve := nerve } ∧
      getMapperParams (mapperPipeline s0) true = .ok l0 ∧ getMapperParams (changes e st history).pipeline true = .ok l ∧
      (l.map Prod.fst).Perm (l0.map Prod.fst) ∧ (l.map Prod.fst).Nodup ∧
      (plainParams l).Perm ((plainParams l0).map (shown (changes e st history).widgets)) := by
  obtain ⟨hi, hf, hin⟩ := inv_plot kind e clone s0 h st hst
  obtain ⟨_, _, _, s, p1, ⟨cv, cl, nv, rfl⟩, p3, p4, p5⟩ := inv_changes e s0 _ hf hin history st hi
  obtain ⟨l0, a1, a2⟩ := C51_get s0
  obtain ⟨l, b1, b2⟩ := C51_get { s0 with cover := cv, clusterer := cl, nerve := nv }
  refine ⟨cv, cl, nv, l0, l, p1, a1, by rw [p1]; exact b1, ?_, C51_distinct _ p3.distinct l b1, ?_⟩
  · refine (b2.map Prod.fst).trans ?_
    rw [p4]
    exact (a2.map Prod.fst).symm
  · refine (b2.filterMap plain).trans ?_
    change (plainParams (reported _)).Perm _
    rw [p5]
    exact ((a2.filterMap plain).map _).symm

/-- C108: a widget displays the value last entered. -/
theorem C108_displayed [DecidableEq A] (e : Engine A G C N T H M) (st : State A G C N T H M) (history : List (List Char × A)) (n : List Char) :
    (changes e st history).widgets.lookup n = (st.widgets.lookup n).map fun a => (lastEntered history n).getD a := by
  induction history generalizing st with
  | nil =>
      change st.widgets.lookup n = _
      cases st.widgets.lookup n <;> rfl
  | cons p history ih =>
      change (changes e (change e st p.1 p.2) history).widgets.lookup n = _
      rw [ih]
      have hone : (change e st p.1 p.2).widgets.lookup n = if n = p.1 then (st.widgets.lookup n).map fun _ => p.2 else st.widgets.lookup n := by
        unfold change
        split
        · rename_i hnone
          rw [lookup_widget] at hnone
          split
          · rename_i e1
            rw [e1, hnone]
            rfl
          · rfl
        · rename_i old hold
          rw [lookup_widget] at hold
          split
          · rename_i e1
            split
            · rename_i e2
              rw [e2, hold, e1]
              rfl
            · rfl
          · dsimp only
            have hu : ∀ st' : State A G C N T H M, (if p.1 ∈ st'.observed then update e st' else st').widgets = st'.widgets := by
              intro st'
              split
              · exact (update_frame e st').2.1
              · rfl
            exact (congrArg (List.lookup n) (hu { st with widgets := enter st.widgets p.1 p.2 })).trans (lookup_enter st.widgets p.1 n p.2)
      rw [hone]
      unfold lastEntered
      by_cases e1 : n = p.1
      · rw [if_pos e1, List.filter_cons, if_pos (by simp [e1])]
        cases st.widgets.lookup n with
        | none => rfl
        | some a =>
            simp only [Option.map_some, List.map_cons]
            rw [List.getLast?_cons]
            rfl
      · rw [if_neg e1, List.filter_cons, if_neg (by simp [Ne.symm e1])]

/-- C108: with `clone_pipeline=True` the caller's pipeline keeps its parameters; otherwise it is `pipeline_`. -/
theorem C108_clone [DecidableEq A] (kind : A → Kind) (e : Engine A G C N T H M) (clone : Bool) (v : Val A) (st : State A G C N T H M)
    (hst : plot kind e clone v = .ok st) (history : List (List Char × A)) :
    (changes e st history).user = if clone then v else (changes e st history).pipeline := by
  have step : ∀ st' : State A G C N T H M, st'.clone = clone → st'.user = (if clone then v else st'.pipeline) → ∀ p : List Char × A,
      (change e st' p.1 p.2).clone = clone ∧ (change e st' p.1 p.2).user = if clone then v else (change e st' p.1 p.2).pipeline := by
    intro st' h1 h2 p
    unfold change
    split
    · exact ⟨h1, h2⟩
    · split
      · exact ⟨h1, h2⟩
      · dsimp only
        split
        · obtain ⟨f1, _, _, _, f5, f6, _, _⟩ := update_frame e { st' with widgets := enter st'.widgets p.1 p.2 }
          rw [f1, f5, f6]
          refine ⟨h1, ?_⟩
          simp only [h1, h2]
          cases clone <;> rfl
        · exact ⟨h1, h2⟩
  obtain ⟨l, g, c, t, n, fig, _, _, _, _, _, rfl⟩ := plot_ok kind e clone v st hst
  have : ∀ (h : List (Name × A)) (st' : State A G C N T H M), st'.clone = clone → st'.user = (if clone then v else st'.pipeline) →
      (changes e st' h).user = if clone then v else (changes e st' h).pipeline := by
    intro h
    induction h with
    | nil => intro st' _ h2; exact h2
    | cons p h ih =>
        intro st' h1 h2
        obtain ⟨k1, k2⟩ := step st' h1 h2 p
        exact ih _ k1 k2
  exact this history _ rfl (by cases clone <;> rfl)

/-- A value other than the one displayed is entered in an observed widget. -/
theorem change_eq [DecidableEq A] (e : Engine A G C N T H M) (st : State A G C N T H M) (n : Name) (a : A) :
    change e st n a = st ∨ (change e st n a = { st with widgets := enter st.widgets n a }) ∨ change e st n a = update e { st with widgets := enter st.widgets n a } := by
  unfold change
  split
  · exact .inl rfl
  · split
    · exact .inl rfl
    · dsimp only
      split
      · exact .inr (.inr rfl)
      · exact .inr (.inl rfl)

/-- What a figure shows at all times, `label` being the one which is not computed. -/
structure Drawn (e : Engine A G C N T H M) (c : C) (col : Bool) (lab : Label H) (st : State A G C N T H M) : Prop where
  color : st.color = c
  colored : st.colored = col
  label : col = false → st.fig.label = lab
  menu : ¬ 1 < e.columns c → st.fig.menu = none
  valid : st.valid = true → ∃ t n, e.fit st.pipeline = .ok st.graph ∧ e.graphData c st.graph = .ok (t, n) ∧ st.summaries = n ∧ staticFigure e c t n = .ok st.fig

theorem makeMenu_old (e : Engine A G C N T H M) (c : C) (col : Bool) (n : N) (t : T) (old : Option M) (h : ¬ 1 < e.columns c → old = none) :
    makeMenu e c col n t old = makeMenu e c col n t none := by
  unfold makeMenu
  split
  · rfl
  · rename_i hc
    rw [h hc]

theorem makeMenu_none (e : Engine A G C N T H M) (c : C) (col : Bool) (n : N) (t : T) (old m : Option M) (h : ¬ 1 < e.columns c → old = none)
    (hm : makeMenu e c col n t old = .ok m) : ¬ 1 < e.columns c → m = none := by
  intro hc
  unfold makeMenu at hm
  rw [if_neg hc] at hm
  cases hm
  exact h hc

theorem drawn_traces (e : Engine A G C N T H M) (hcustom : ∀ t, e.custom t = t) (c : C) (col : Bool) (label : Label H) (st : State A G C N T H M)
    (h1 : st.color = c) (h2 : st.colored = col) (h3 : col = false → st.fig.label = label) (h4 : ¬ 1 < e.columns c → st.fig.menu = none) (t : T) (n : N)
    (h5 : e.fit st.pipeline = .ok st.graph) (h6 : e.graphData c st.graph = .ok (t, n)) (h7 : st.summaries = n) (h8 : st.fig.label = firstLabel e n)
    (h9 : (firstLabel e n).isColors = col) : Drawn e c col label (drawTraces e st t n) := by
  unfold drawTraces
  dsimp only
  split
  · exact ⟨h1, h2, h3, h4, fun h => by cases h⟩
  · rename_i m hm
    rw [h1, h2] at hm
    · refine ⟨h1, h2, h3, makeMenu_none e c col n t _ m h4 hm, fun _ => ⟨t, n, h5, h6, h7, ?_⟩⟩
      unfold staticFigure
      rw [h9, ← makeMenu_old e c col n t _ h4, hm, ok_bind, hcustom, h8]
      rfl

theorem drawn_update (e : Engine A G C N T H M) (hcustom : ∀ t, e.custom t = t) (c : C) (col : Bool) (label : Label H)
    (hcol : col = true → e.dim3 = true ∧ e.given = false) (hlab : col = false → ∀ n, firstLabel e n = label) (hlab' : label.isColors = false)
    (st : State A G C N T H M) (h : Drawn e c col label st) : Drawn e c col label (update e st) := by
  unfold update
  split
  · exact ⟨h.color, h.colored, h.label, h.menu, fun h => by cases h⟩
  · rename_i v hv
    unfold newGraph
    split
    · exact ⟨h.color, h.colored, h.label, h.menu, fun h => by cases h⟩
    · rename_i g hg
      split
      · exact ⟨h.color, h.colored, h.label, h.menu, fun h => by cases h⟩
      · rename_i tn htn
        have hc : (st.withPipeline v).color = c := h.color
        have hcl : (st.withPipeline v).colored = col := h.colored
        rw [hc] at htn
        unfold draw
        split
        · rename_i hct
          have hcb : col = true := h.colored.symm.trans hct
          obtain ⟨d1, d2⟩ := hcol hcb
          split
          · exact ⟨h.color, h.colored, h.label, h.menu, fun h => by cases h⟩
          · rename_i lb hl
            have hfl : firstLabel e tn.2 = .colors lb := by
              unfold firstLabel
              rw [d1, d2, hl]
              rfl
            exact drawn_traces e hcustom c col label { st.withPipeline v with graph := g, summaries := tn.2, fig := { st.fig with label := .colors lb } } h.color h.colored
              (fun h => by rw [hcb] at h; cases h) h.menu tn.1 tn.2 hg htn rfl hfl.symm (by rw [hfl, hcb]; rfl)
        · rename_i hct
          have hcb : col = false := by
            cases hcc : col with
            | false => rfl
            | true => exact absurd (h.colored.trans hcc) hct
          exact drawn_traces e hcustom c col label { st.withPipeline v with graph := g, summaries := tn.2 } h.color h.colored h.label h.menu tn.1 tn.2 hg htn rfl
            (by rw [hlab hcb]; exact h.label hcb) (by rw [hlab hcb, hlab', hcb])

theorem drawn_changes [DecidableEq A] (e : Engine A G C N T H M) (hcustom : ∀ t, e.custom t = t) (c : C) (col : Bool) (label : Label H)
    (hcol : col = true → e.dim3 = true ∧ e.given = false) (hlab : col = false → ∀ n, firstLabel e n = label) (hlab' : label.isColors = false)
    (history : List (Name × A)) (st : State A G C N T H M) (h : Drawn e c col label st) : Drawn e c col label (changes e st history) := by
  induction history generalizing st with
  | nil => exact h
  | cons p history ih =>
      refine ih _ ?_
      dsimp only
      have hw : Drawn e c col label { st with widgets := enter st.widgets p.1 p.2 } := ⟨h.color, h.colored, h.label, h.menu, h.valid⟩
      rcases change_eq e st p.1 p.2 with h' | h' | h' <;> rw [h']
      · exact h
      · exact hw
      · exact drawn_update e hcustom c col label hcol hlab hlab' _ hw

/-- C108: if the parameters are reported valid, then `graph_`, `node_summaries_` and `figure_` are those of a new plot of `pipeline_`.  Two assumptions are needed: `plotly_params` does not
replace data of the traces (`C108_refuted_custom`), and the hover labels of the first plot are not white for want of different node colours (`C108_refuted_white`). -/
theorem C108_valid [DecidableEq A] (kind : A → Kind) (e : Engine A G C N T H M) (hcustom : ∀ t, e.custom t = t) (clone : Bool) (s0 : Slots A) (h : Plottable kind s0)
    (st : State A G C N T H M) (hst : plot kind e clone (mapperPipeline s0) = .ok st) (hwhite : st.fig.label ≠ .white) (history : List (List Char × A))
    (hv : (changes e st history).valid = true) :
    ∃ st', plot kind e clone (changes e st history).pipeline = .ok st' ∧ st'.graph = (changes e st history).graph ∧ st'.summaries = (changes e st history).summaries ∧
      st'.fig = (changes e st history).fig := by
  obtain ⟨cv, cl, nv, l0, l, hp, _, hl, _⟩ := C108_params kind e clone s0 h st hst history
  obtain ⟨l1, g, c, t, n, fig, a1, a2, a3, a4, a5, rfl⟩ := plot_ok kind e clone _ st hst
  have hfig : fig.label = firstLabel e n := by
    unfold staticFigure at a5
    cases hm : makeMenu e c (firstLabel e n).isColors n t none with
    | error er => rw [hm] at a5; cases a5
    | ok m =>
        rw [hm, ok_bind] at a5
        cases a5
        rfl
  have hmenu : ¬ 1 < e.columns c → fig.menu = none := by
    unfold staticFigure at a5
    cases hm : makeMenu e c (firstLabel e n).isColors n t none with
    | error er => rw [hm] at a5; cases a5
    | ok m =>
        rw [hm, ok_bind] at a5
        cases a5
        exact makeMenu_none e c _ n t none m (fun _ => rfl) hm
  have hall : (fig.label.isColors = true → e.dim3 = true ∧ e.given = false) ∧
      (fig.label.isColors = false → ∀ n', firstLabel e n' = if e.dim3 then .given else .unset) := by
    dsimp only at hwhite
    rw [hfig] at hwhite ⊢
    unfold firstLabel at hwhite ⊢
    cases hd : e.dim3 with
    | false => exact ⟨fun h => (by cases h), fun _ n' => rfl⟩
    | true =>
        cases hg : e.given with
        | true => exact ⟨fun h => (by cases h), fun _ n' => rfl⟩
        | false =>
            refine ⟨fun _ => ⟨rfl, rfl⟩, fun hc n' => ?_⟩
            cases hlb : e.labels n with
            | ok lb => rw [hlb] at hc; cases hc
            | error er =>
                rw [hd, hg, hlb] at hwhite
                exact absurd rfl hwhite
  have hdr : Drawn e c fig.label.isColors (if e.dim3 then .given else .unset)
      { clone := clone, user := mapperPipeline s0, pipeline := mapperPipeline s0, pushed := pushed kind (groups l1), observed := observed kind (groups l1),
        widgets := allWidgets kind (groups l1), color := c, colored := fig.label.isColors, graph := g, summaries := n, fig := fig, valid := true } :=
    ⟨rfl, rfl, fun hc => hfig.trans (hall.2 hc n), hmenu, fun _ => ⟨t, n, a2, a4, rfl, a5⟩⟩
  have hfin := drawn_changes e hcustom c _ _ hall.1 hall.2 (by split <;> rfl) history _ hdr
  obtain ⟨t', n', b1, b2, b3, b4⟩ := hfin.valid hv
  exact ⟨_, plot_eq kind e clone _ l _ c t' n' _ hl b1 a3 b2 b4, rfl, b3.symm, rfl⟩

/-- C108: if the pipeline cannot be fitted with the value entered, then this is reported, and `graph_`, `node_summaries_` and `figure_` remain. -/
theorem C108_invalid [DecidableEq A] (e : Engine A G C N T H M) (st : State A G C N T H M) (n : List Char) (a old : A) (hold : st.widgets.lookup n = some old)
    (hne : a ≠ old) (hobs : n ∈ st.observed) (er : PyErr) (hfit : e.fit (change e st n a).pipeline = .error er) :
    (change e st n a).valid = false ∧ (change e st n a).graph = st.graph ∧ (change e st n a).summaries = st.summaries ∧ (change e st n a).fig = st.fig := by
  have hch : change e st n a = update e { st with widgets := enter st.widgets n a } := by
    unfold change
    rw [lookup_widget, hold]
    dsimp only
    rw [if_neg hne]
    exact if_pos hobs
  rw [hch] at hfit ⊢
  rw [(update_frame e _).1] at hfit
  unfold update
  split
  · exact ⟨rfl, rfl, rfl, rfl⟩
  · rename_i v hv
    rw [hv] at hfit
    unfold newGraph
    have : e.fit (State.withPipeline { st with widgets := enter st.widgets n a } v).pipeline = .error er := hfit
    rw [this]
    exact ⟨rfl, rfl, rfl, rfl⟩

/-- The update after a change which reaches the fitting. -/
theorem change_newGraph [DecidableEq A] (kind : A → Kind) (e : Engine A G C N T H M) (clone : Bool) (s0 : Slots A) (h : Plottable kind s0) (st0 : State A G C N T H M)
    (hst : plot kind e clone (mapperPipeline s0) = .ok st0) (history : List (List Char × A)) (st : State A G C N T H M) (hs : st = changes e st0 history)
    (n : List Char) (a old : A) (hold : st.widgets.lookup n = some old) (hne : a ≠ old) :
    ∃ st', change e st n a = newGraph e st' ∧ st'.pipeline = (change e st n a).pipeline ∧ st'.color = st.color ∧ st'.colored = st.colored ∧ st'.graph = st.graph ∧
      st'.summaries = st.summaries ∧ st'.fig = st.fig := by
  obtain ⟨hi, hf, hin⟩ := inv_plot kind e clone s0 h st0 hst
  have hinv := inv_changes e s0 _ hf hin history st0 hi
  rw [← hs] at hinv
  have hn : n ∈ st0.widgets.map Prod.fst := by
    rw [← hinv.widgets]
    exact (lookup_isSome _ _).1 ⟨old, hold⟩
  have hch : change e st n a = update e { st with widgets := enter st.widgets n a } := by
    unfold change
    rw [lookup_widget, hold]
    dsimp only
    rw [if_neg hne]
    exact if_pos (by rw [hinv.observed]; exact hn)
  obtain ⟨s, p1, p2, p3, p4, p5⟩ := hinv.pipeline
  have hw' : (enter st.widgets n a).map Prod.fst = st0.widgets.map Prod.fst := by rw [enter_names, hinv.widgets]
  obtain ⟨s', q1, _⟩ := push_all (enter st.widgets n a) _ hf (fun p hp => by rw [hw']; exact hp) s p3 (fun p hp => by
    have hnames : (plainParams (reported s)).map Prod.fst = (plainParams (reported s0)).map Prod.fst := by
      rw [p5, List.map_map]
      rfl
    rw [hnames]
    exact hin p hp)
  rw [← p1, ← hinv.pushed] at q1
  have hup : update e { st with widgets := enter st.widgets n a } = newGraph e (State.withPipeline { st with widgets := enter st.widgets n a } (mapperPipeline s')) := by
    unfold update
    rw [q1]
  refine ⟨_, hch.trans hup, ?_, rfl, rfl, rfl, rfl, rfl⟩
  rw [hch, (update_frame e _).1, q1]
  rfl

/-- C108 fails if the graph of the new parameters cannot be drawn (for instance because it has no nodes): the parameters are reported invalid and `graph_` is the new graph, but
`node_summaries_` and `figure_` are those of the old one. -/
theorem C108_refuted_stale [DecidableEq A] (kind : A → Kind) (e : Engine A G C N T H M) (clone : Bool) (s0 : Slots A) (h : Plottable kind s0) (st0 : State A G C N T H M)
    (hst : plot kind e clone (mapperPipeline s0) = .ok st0) (history : List (List Char × A)) (st : State A G C N T H M) (hs : st = changes e st0 history)
    (n : List Char) (a old : A) (hold : st.widgets.lookup n = some old) (hne : a ≠ old) (g : G) (hfit : e.fit (change e st n a).pipeline = .ok g) (er : PyErr)
    (hg : e.graphData st.color g = .error er) :
    (change e st n a).valid = false ∧ (change e st n a).graph = g ∧ (change e st n a).summaries = st.summaries ∧ (change e st n a).fig = st.fig := by
  obtain ⟨st', k1, k2, k3, k4, k5, k6, k7⟩ := change_newGraph kind e clone s0 h st0 hst history st hs n a old hold hne
  rw [← k2] at hfit
  rw [k1]
  unfold newGraph
  rw [hfit]
  dsimp only
  rw [k3, hg]
  exact ⟨rfl, rfl, k6, k7⟩

/-- C108 fails for three-dimensional plots if with the new parameters all nodes have the same colour: the parameters are reported invalid and the figure remains, although a new plot
of `pipeline_` succeeds (with white hover labels). -/
theorem C108_refuted_constant [DecidableEq A] (kind : A → Kind) (e : Engine A G C N T H M) (clone : Bool) (s0 : Slots A) (h : Plottable kind s0) (st0 : State A G C N T H M)
    (hst : plot kind e clone (mapperPipeline s0) = .ok st0) (history : List (List Char × A)) (st : State A G C N T H M) (hs : st = changes e st0 history)
    (hcol : st.colored = true) (hone : ∀ c, e.columns c = 1) (hd : e.dim3 = true) (hgiven : e.given = false) (hcheck : e.check = .ok st.color)
    (n : List Char) (a old : A) (hold : st.widgets.lookup n = some old) (hne : a ≠ old) (g : G) (hfit : e.fit (change e st n a).pipeline = .ok g) (t : T) (m : N)
    (hg : e.graphData st.color g = .ok (t, m)) (er : PyErr) (hlab : e.labels m = .error er) :
    (change e st n a).valid = false ∧ (change e st n a).graph = g ∧ (change e st n a).summaries = m ∧ (change e st n a).fig = st.fig ∧
    ∃ st', plot kind e clone (change e st n a).pipeline = .ok st' ∧ st'.fig.traces = e.custom t ∧ st'.fig.label = .white := by
  obtain ⟨cv, cl, nv, l0, l, hp, _, hl, _⟩ := C108_params kind e clone s0 h st0 hst (history ++ [(n, a)])
  have hch : changes e st0 (history ++ [(n, a)]) = change e st n a := by
    rw [hs]
    unfold changes
    rw [List.foldl_append]
    rfl
  rw [hch] at hl
  obtain ⟨st', k1, k2, k3, k4, k5, k6, k7⟩ := change_newGraph kind e clone s0 h st0 hst history st hs n a old hold hne
  have hfit' := hfit
  rw [← k2] at hfit'
  have hw : firstLabel e m = .white := by
    unfold firstLabel
    rw [hd, hgiven, hlab]
    rfl
  have hmenu : ∀ col, makeMenu e st.color col m t none = .ok none := by
    intro col
    unfold makeMenu
    rw [hone]
    rfl
  have hnew : ∃ st', plot kind e clone (change e st n a).pipeline = .ok st' ∧ st'.fig.traces = e.custom t ∧ st'.fig.label = .white := by
    have hfig : staticFigure e st.color t m = .ok { traces := e.custom t, label := .white, menu := none } := by
      unfold staticFigure
      rw [hmenu, ok_bind, hw]
      rfl
    exact ⟨_, plot_eq kind e clone _ l g st.color t m _ hl hfit hcheck hg hfig, rfl, rfl⟩
  refine ⟨?_, ?_, ?_, ?_, hnew⟩ <;>
  · rw [k1]
    unfold newGraph draw
    rw [hfit']
    dsimp only
    rw [k3, hg]
    dsimp only
    rw [k4, hcol, if_pos rfl, hlab]
    try exact k7

theorem newGraph_label (e : Engine A G C N T H M) (st : State A G C N T H M) (h : st.colored = false) : (newGraph e st).fig.label = st.fig.label := by
  unfold newGraph
  split
  · rfl
  · split
    · rfl
    · unfold draw drawTraces
      dsimp only
      rw [h, if_neg (by decide)]
      split <;> rfl

/-- C108 fails for three-dimensional plots if in the first plot all nodes have the same colour: the hover labels remain white whatever is entered later. -/
theorem C108_refuted_white [DecidableEq A] (kind : A → Kind) (e : Engine A G C N T H M) (clone : Bool) (v : Val A) (st : State A G C N T H M)
    (hst : plot kind e clone v = .ok st) (hwhite : st.fig.label = .white) (history : List (List Char × A)) : (changes e st history).fig.label = .white := by
  have hcol : st.colored = false := by
    obtain ⟨l, g, c, t, n, fig, _, _, _, _, _, rfl⟩ := plot_ok kind e clone v st hst
    dsimp only at hwhite ⊢
    rw [hwhite]
    rfl
  have : ∀ (h : List (Name × A)) (st' : State A G C N T H M), st'.colored = false → st'.fig.label = .white → (changes e st' h).fig.label = .white := by
    intro h
    induction h with
    | nil => intro st' _ h2; exact h2
    | cons p h ih =>
        intro st' h1 h2
        refine ih _ ?_ ?_
        · dsimp only
          rcases change_eq e st' p.1 p.2 with h' | h' | h' <;> rw [h']
          · exact h1
          · exact h1
          · rw [(update_frame e _).2.2.2.2.2.2.2]
            exact h1
        · dsimp only
          rcases change_eq e st' p.1 p.2 with h' | h' | h' <;> rw [h']
          · exact h2
          · exact h2
          · unfold update
            split
            · exact h2
            · rw [newGraph_label e _ (by exact h1)]
              exact h2
  exact this history st hcol hwhite

/-- C108 fails for data of the traces which `plotly_params` replaces, such as the sizes of the markers: the first successful update puts back those computed. -/
theorem C108_refuted_custom [DecidableEq A] (kind : A → Kind) (e : Engine A G C N T H M) (clone : Bool) (s0 : Slots A) (h : Plottable kind s0) (st0 : State A G C N T H M)
    (hst : plot kind e clone (mapperPipeline s0) = .ok st0) (history : List (List Char × A)) (st : State A G C N T H M) (hs : st = changes e st0 history)
    (hcol : st.colored = false) (n : List Char) (a old : A) (hold : st.widgets.lookup n = some old) (hne : a ≠ old) (g : G)
    (hfit : e.fit (change e st n a).pipeline = .ok g) (t : T) (m : N) (hg : e.graphData st.color g = .ok (t, m)) (hcust : e.custom t ≠ t) :
    (change e st n a).fig.traces = t ∧
    ∀ st', e.check = .ok st.color → plot kind e clone (change e st n a).pipeline = .ok st' → st'.fig.traces ≠ (change e st n a).fig.traces := by
  obtain ⟨st', k1, k2, k3, k4, k5, k6, k7⟩ := change_newGraph kind e clone s0 h st0 hst history st hs n a old hold hne
  have ht : (change e st n a).fig.traces = t := by
    have hfit' := hfit
    rw [← k2] at hfit'
    rw [k1]
    unfold newGraph draw drawTraces
    rw [hfit']
    dsimp only
    rw [k3, hg]
    dsimp only
    rw [k4, hcol, if_neg (by decide)]
    split <;> rfl
  refine ⟨ht, fun st2 hcheck hplot => ?_⟩
  obtain ⟨l, g', c, t', n', fig, a1, a2, a3, a4, a5, rfl⟩ := plot_ok kind e clone _ st2 hplot
  rw [hfit] at a2
  cases a2
  rw [hcheck] at a3
  cases a3
  rw [hg] at a4
  cases a4
  rw [ht]
  unfold staticFigure at a5
  cases hm : makeMenu e st.color (firstLabel e m).isColors m t none with
  | error er => rw [hm] at a5; cases a5
  | ok mm =>
      rw [hm, ok_bind] at a5
      cases a5
      exact hcust

end History

/-! ## Concrete cases -/

section Sample

/-- Values below 100 are integers, the others are not displayed. -/
def sampleKind (a : Nat) : Kind := if a < 100 then .int else .other

/-- A pipeline; the clusterer contains another estimator. -/
def sampleSlots : Slots Nat :=
  { memory := .atom 100
    verbose := .atom 100
    scaler := .est none .nil .nil
    filter := .est none (.cons "n_components".toList (.atom 2) .nil) .nil
    cover := .est none (.cons "kind".toList (.atom 101) (.cons "n_intervals".toList (.atom 5) .nil)) .nil
    prepr := .est none .nil .nil
    clusterer := .est none (.cons "base".toList (.est none (.cons "eps".toList (.atom 3) .nil) .nil) (.cons "min_samples".toList (.atom 4) .nil)) .nil
    jobs := .atom 100
    prefer := .atom 102
    nerve := some (.atom 1, .atom 103, .atom 0)
    innerMemory := .atom 100
    innerVerbose := .atom 100
    unionJobs := .atom 100
    unionWeights := .atom 100
    unionVerbose := .atom 100 }

/-- The parameter of the cover on which the graph depends. -/
def intervalsOf (v : Val Nat) : Nat :=
  match (getParams v).filter fun p => p.1 = "pullback_cover__map_and_cover__cover__n_intervals".toList with
  | [(_, .atom k)] => k
  | _ => 0

/-- Fitting fails for no intervals, drawing for one, and all nodes have the same colour for two. -/
def sampleEngine (dim3 : Bool) : Engine Nat Nat Nat Nat Nat Nat Nat :=
  { fit := fun v => if intervalsOf v = 0 then .error .valueError else .ok (intervalsOf v)
    check := .ok 1
    graphData := fun _ g => if g = 1 then .error .valueError else .ok (g + 1000, g)
    labels := fun n => if n = 2 then .error .valueError else .ok n
    columns := id
    buttons := fun _ _ n _ => .ok n
    dim3 := dim3
    given := false
    custom := id }

/-- The plot. -/
def samplePlot (dim3 : Bool) : PyM (State Nat Nat Nat Nat Nat Nat Nat) := plot sampleKind (sampleEngine dim3) true (mapperPipeline sampleSlots)

/-- What can be seen. -/
structure View where
  shown : List (String × Nat)
  valid : Bool
  graph : Nat
  summaries : Nat
  traces : Nat
  intervals : Nat
  user : Nat
  deriving DecidableEq

/-- What can be seen after values have been entered: the parameters displayed, whether they are valid, the graph, the summaries, the traces and the number of intervals of `pipeline_`
and of the caller's pipeline. -/
def sampleView (dim3 : Bool) (h : List (String × Nat)) : Option View :=
  match samplePlot dim3 with
  | .error _ => none
  | .ok st =>
      let st := changes (sampleEngine dim3) st (h.map fun p => (p.1.toList, p.2))
      some ⟨st.widgets.map fun p => (String.ofList p.1, p.2), st.valid, st.graph, st.summaries, st.fig.traces, intervalsOf st.pipeline, intervalsOf st.user⟩

-- The hypotheses of the theorems hold: a plottable pipeline which is plotted.
example : Plottable sampleKind sampleSlots := by
  have g : ∀ n : String, ¬ ['_', '_'] <:+: n.toList ++ ['_'] → GoodName n.toList := fun n h => h
  have d : ∀ v : Val Nat, v ∈ slotValues sampleSlots → DistinctNames v := by
    intro v hv
    unfold slotValues sampleSlots at hv
    simp only [List.mem_append, List.mem_cons, List.not_mem_nil, or_false] at hv
    rcases hv with (rfl | rfl | rfl | rfl | rfl | rfl) | rfl | rfl | rfl <;> unfold DistinctNames <;> simp only [getParams, deepOwn, deepKids, Fields.toList] <;> decide +kernel
  refine ⟨?_, ?_, d, ?_⟩
  · unfold sampleSlots
    simp only [WellNamed, WellNamedFields, Fields.names, Fields.toList, and_true]
    refine ⟨?_, by decide +kernel⟩
    intro n hn
    simp only [List.map_cons, List.map_nil, List.append_nil, List.mem_cons, List.not_mem_nil, or_false] at hn
    rcases hn with rfl | rfl <;> exact g _ (by decide +kernel)
  · unfold sampleSlots
    simp only [WellNamed, WellNamedFields, Fields.names, Fields.toList, and_true]
    refine ⟨?_, by decide +kernel, ?_, by decide +kernel⟩
    · intro n hn
      simp only [List.map_cons, List.map_nil, List.append_nil, List.mem_cons, List.not_mem_nil, or_false] at hn
      rcases hn with rfl | rfl <;> exact g _ (by decide +kernel)
    · intro n hn
      simp only [List.map_cons, List.map_nil, List.append_nil, List.mem_cons, List.not_mem_nil, or_false] at hn
      rcases hn with rfl
      exact g _ (by decide +kernel)
  · intro t ht
    cases ht
    exact ⟨by unfold hasKind; decide +kernel, by unfold hasKind; decide +kernel⟩

example : sampleView false [] = some ⟨[("cover__n_intervals", 5), ("clusterer__base__eps", 3), ("clusterer__min_samples", 4), ("min_intersection", 1), ("contract_nodes", 0)], true, 5, 5, 1005, 5, 5⟩ := by
  decide +kernel

-- `C108_params`, `C108_displayed`, `C108_clone` and `C108_valid`: the pipeline follows, the caller's does not.
example : sampleView false [("cover__n_intervals", 7), ("clusterer__base__eps", 6), ("cover__n_intervals", 8)] =
    some ⟨[("cover__n_intervals", 8), ("clusterer__base__eps", 6), ("clusterer__min_samples", 4), ("min_intersection", 1), ("contract_nodes", 0)], true, 8, 8, 1008, 8, 5⟩ := by
  decide +kernel

-- `C108_invalid`: the pipeline cannot be fitted; everything but the parameters remains.
example : sampleView false [("cover__n_intervals", 0)] =
    some ⟨[("cover__n_intervals", 0), ("clusterer__base__eps", 3), ("clusterer__min_samples", 4), ("min_intersection", 1), ("contract_nodes", 0)], false, 5, 5, 1005, 0, 5⟩ := by
  decide +kernel

-- `C108_refuted_stale`: the graph is the new one, summaries and traces are the old ones.
example : sampleView false [("cover__n_intervals", 1)] =
    some ⟨[("cover__n_intervals", 1), ("clusterer__base__eps", 3), ("clusterer__min_samples", 4), ("min_intersection", 1), ("contract_nodes", 0)], false, 1, 5, 1005, 1, 5⟩ := by
  decide +kernel

-- `C108_refuted_constant`: two intervals are valid in two dimensions, but not in three.
example : sampleView false [("cover__n_intervals", 2)] =
      some ⟨[("cover__n_intervals", 2), ("clusterer__base__eps", 3), ("clusterer__min_samples", 4), ("min_intersection", 1), ("contract_nodes", 0)], true, 2, 2, 1002, 2, 5⟩ ∧
    sampleView true [("cover__n_intervals", 2)] =
      some ⟨[("cover__n_intervals", 2), ("clusterer__base__eps", 3), ("clusterer__min_samples", 4), ("min_intersection", 1), ("contract_nodes", 0)], false, 2, 2, 1005, 2, 5⟩ := by
  decide +kernel

-- `C108_refuted_white`: a first plot with white labels.
example : (match plot sampleKind { sampleEngine true with labels := fun n => if n = 5 then .error .valueError else .ok n } true (mapperPipeline sampleSlots) with
    | .ok st => match st.fig.label with
      | .white => true
      | _ => false
    | .error _ => false) = true := by
  decide +kernel

end Sample

end Gtda.Props
