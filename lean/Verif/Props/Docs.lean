import Verif.Spec.Docs

/-!
# C134: docstrings of `fit_transform`
-/

set_option autoImplicit false

namespace Gtda.Props.Docs

open Py Gtda.Docs Gtda.Spec.Docs

/-! ## Occurrences -/

theorem mem_occurrences (pat : Text) : ∀ (s pre post : Text), (pre, post) ∈ occurrences pat s ↔ s = pre ++ pat ++ post := by
  intro s
  induction s with
  | nil =>
      intro pre post
      unfold occurrences
      by_cases h : pat = []
      · subst h
        simp only [if_true, List.mem_singleton, Prod.mk.injEq, List.append_nil]
        constructor
        · rintro ⟨rfl, rfl⟩; rfl
        · intro e
          have := List.append_eq_nil_iff.1 e.symm
          exact this
      · simp only [h, if_false, List.not_mem_nil, false_iff]
        intro e
        have := List.append_eq_nil_iff.1 e.symm
        exact h (List.append_eq_nil_iff.1 this.1).2
  | cons c s ih =>
      intro pre post
      unfold occurrences
      rw [List.mem_append, List.mem_map]
      cases pre with
      | nil =>
          constructor
          · rintro (h | ⟨p, -, h⟩)
            · by_cases hp : pat.isPrefixOf (c :: s) = true
              · rw [if_pos hp, List.mem_singleton] at h
                obtain ⟨t, ht⟩ := List.isPrefixOf_iff_prefix.1 hp
                have : post = (c :: s).drop pat.length := (Prod.mk.inj h).2
                rw [this, ← ht]; simp
              · rw [if_neg hp] at h; simp at h
            · simp at h
          · intro e
            refine Or.inl ?_
            have hp : pat.isPrefixOf (c :: s) = true := List.isPrefixOf_iff_prefix.2 ⟨post, by rw [e]; rfl⟩
            rw [if_pos hp, e]; simp
      | cons d pre =>
          constructor
          · rintro (h | ⟨p, hp, h⟩)
            · by_cases hp : pat.isPrefixOf (c :: s) = true
              · rw [if_pos hp] at h; simp at h
              · rw [if_neg hp] at h; simp at h
            · have h1 := (Prod.mk.inj h).1
              have h2 := (Prod.mk.inj h).2
              obtain ⟨rfl, rfl⟩ := List.cons.inj h1
              subst h2
              rw [(ih p.1 p.2).1 hp]; rfl
          · intro e
            obtain ⟨rfl, rfl⟩ := List.cons.inj e
            exact Or.inr ⟨(pre, post), (ih pre post).2 rfl, rfl⟩

/-- Occurrences are listed from the left. -/
theorem occurrences_sorted (pat : Text) : ∀ s : Text, (occurrences pat s).Pairwise fun p q => p.1.length < q.1.length := by
  intro s
  induction s with
  | nil => unfold occurrences; split <;> simp
  | cons c s ih =>
      unfold occurrences
      rw [List.pairwise_append]
      refine ⟨by split <;> simp, ?_, ?_⟩
      · rw [List.pairwise_map]
        exact ih.imp fun h => by simpa using h
      · intro a ha b hb
        obtain ⟨q, -, rfl⟩ := List.mem_map.1 hb
        split at ha
        · rw [List.mem_singleton] at ha; subst ha; simp
        · simp at ha

theorem head_le {α : Type} {f : α → Nat} {l : List α} (h : l.Pairwise fun p q => f p < f q) {a : α} (ha : l.head? = some a) : ∀ b ∈ l, f a ≤ f b := by
  cases l with
  | nil => simp at ha
  | cons x l =>
      simp only [List.head?_cons, Option.some.injEq] at ha
      subst ha
      intro b hb
      rcases List.mem_cons.1 hb with rfl | hb
      · exact Nat.le_refl _
      · exact Nat.le_of_lt (List.rel_of_pairwise_cons h hb)

theorem le_last {α : Type} {f : α → Nat} {l : List α} (h : l.Pairwise fun p q => f p < f q) {a : α} (ha : l.getLast? = some a) : ∀ b ∈ l, f b ≤ f a := by
  obtain ⟨l', rfl⟩ := List.getLast?_eq_some_iff.1 ha
  intro b hb
  rw [List.pairwise_append] at h
  rcases List.mem_append.1 hb with hb | hb
  · exact Nat.le_of_lt (h.2.2 b hb a (by simp))
  · rw [List.mem_singleton] at hb; subst hb; exact Nat.le_refl _

/-- Two occurrences with prefixes of equal lengths are the same. -/
theorem occ_unique {pat s pre post pre' post' : Text} (h : s = pre ++ pat ++ post) (h' : s = pre' ++ pat ++ post') (hl : pre.length = pre'.length) : pre = pre' ∧ post = post' := by
  have e : pre ++ (pat ++ post) = pre' ++ (pat ++ post') := by rw [← List.append_assoc, ← List.append_assoc, ← h, ← h']
  obtain ⟨h1, h2⟩ := List.append_inj e hl
  exact ⟨h1, List.append_cancel_left h2⟩

theorem last_iff (pat s pre : Text) : (occurrences pat s).getLast?.map Prod.fst = some pre ↔
    ∃ post, s = pre ++ pat ++ post ∧ ∀ pre' post', s = pre' ++ pat ++ post' → pre'.length ≤ pre.length := by
  constructor
  · intro h
    obtain ⟨⟨p, q⟩, hp, rfl⟩ := Option.map_eq_some_iff.1 h
    refine ⟨q, (mem_occurrences pat s p q).1 (List.mem_of_getLast? hp), fun pre' post' e => ?_⟩
    exact le_last (f := fun p : Text × Text => p.1.length) (occurrences_sorted pat s) hp _ ((mem_occurrences pat s pre' post').2 e)
  · rintro ⟨post, e, hm⟩
    cases hl : (occurrences pat s).getLast? with
    | none =>
        rw [List.getLast?_eq_none_iff] at hl
        have := (mem_occurrences pat s pre post).2 e
        rw [hl] at this; simp at this
    | some a =>
        obtain ⟨p, q⟩ := a
        have e' := (mem_occurrences pat s p q).1 (List.mem_of_getLast? hl)
        have h1 := le_last (f := fun p : Text × Text => p.1.length) (occurrences_sorted pat s) hl _ ((mem_occurrences pat s pre post).2 e)
        have h2 := hm p q e'
        have := (occ_unique e e' (Nat.le_antisymm h1 h2)).1
        simp [this]

theorem last_none (pat s : Text) : (occurrences pat s).getLast?.map Prod.fst = none ↔ ∀ pre post, s ≠ pre ++ pat ++ post := by
  rw [Option.map_eq_none_iff, List.getLast?_eq_none_iff, List.eq_nil_iff_forall_not_mem]
  constructor
  · intro h pre post e; exact h (pre, post) ((mem_occurrences pat s pre post).2 e)
  · rintro h ⟨p, q⟩ hm; exact h p q ((mem_occurrences pat s p q).1 hm)

theorem first_iff (pat s post : Text) : (occurrences pat s).head?.map Prod.snd = some post ↔
    ∃ pre, s = pre ++ pat ++ post ∧ ∀ pre' post', s = pre' ++ pat ++ post' → pre.length ≤ pre'.length := by
  constructor
  · intro h
    obtain ⟨⟨p, q⟩, hp, rfl⟩ := Option.map_eq_some_iff.1 h
    refine ⟨p, (mem_occurrences pat s p q).1 (List.mem_of_mem_head? hp), fun pre' post' e => ?_⟩
    exact head_le (f := fun p : Text × Text => p.1.length) (occurrences_sorted pat s) hp _ ((mem_occurrences pat s pre' post').2 e)
  · rintro ⟨pre, e, hm⟩
    cases hl : (occurrences pat s).head? with
    | none =>
        rw [List.head?_eq_none_iff] at hl
        have := (mem_occurrences pat s pre post).2 e
        rw [hl] at this; simp at this
    | some a =>
        obtain ⟨p, q⟩ := a
        have e' := (mem_occurrences pat s p q).1 (List.mem_of_mem_head? hl)
        have h1 := head_le (f := fun p : Text × Text => p.1.length) (occurrences_sorted pat s) hl _ ((mem_occurrences pat s pre post).2 e)
        have h2 := hm p q e'
        have := (occ_unique e' e (Nat.le_antisymm h1 h2)).2
        simp [this]

theorem head?_filterMap_of {α β : Type} (f : α → Option β) : ∀ (l₁ : List α) (a : α) (l₂ : List α) (b : β), (∀ x ∈ l₁, f x = none) → f a = some b →
    ((l₁ ++ a :: l₂).filterMap f).head? = some b := by
  intro l₁ a l₂ b h hb
  rw [List.filterMap_append, List.filterMap_eq_nil_iff.2 h, List.nil_append, List.filterMap_cons_some hb]; rfl

theorem exists_of_head?_filterMap {α β : Type} (f : α → Option β) : ∀ (l : List α) (b : β), (l.filterMap f).head? = some b →
    ∃ l₁ a l₂, l = l₁ ++ a :: l₂ ∧ (∀ x ∈ l₁, f x = none) ∧ f a = some b := by
  intro l
  induction l with
  | nil => intro b h; simp at h
  | cons x l ih =>
      intro b h
      cases hx : f x with
      | none =>
          rw [List.filterMap_cons_none hx] at h
          obtain ⟨l₁, a, l₂, rfl, h1, h2⟩ := ih b h
          refine ⟨x :: l₁, a, l₂, rfl, ?_, h2⟩
          intro y hy
          rcases List.mem_cons.1 hy with rfl | hy
          · exact hx
          · exact h1 y hy
      | some c =>
          rw [List.filterMap_cons_some hx] at h
          refine ⟨[], x, l, rfl, by simp, ?_⟩
          rw [hx]; simpa using h

/-- Where the greedy group between `a` and `b` is. -/
theorem between_iff (a b s m : Text) : between a b s = some m ↔
    ∃ x z, s = x ++ a ++ m ++ b ++ z ∧ (∀ x' m' z', s = x' ++ a ++ m' ++ b ++ z' → x.length ≤ x'.length) ∧ (∀ m' z', s = x ++ a ++ m' ++ b ++ z' → m'.length ≤ m.length) := by
  have key : ∀ (x p : Text), s = x ++ a ++ p → ∀ m' z', (s = x ++ a ++ m' ++ b ++ z' ↔ p = m' ++ b ++ z') := by
    intro x p e m' z'
    rw [e]
    constructor
    · intro h
      have h' : (x ++ a) ++ p = (x ++ a) ++ (m' ++ b ++ z') := by rw [h]; simp [List.append_assoc]
      exact List.append_cancel_left h'
    · rintro rfl; simp [List.append_assoc]
  constructor
  · intro h
    obtain ⟨l₁, ⟨x, p⟩, l₂, hl, h1, h2⟩ := exists_of_head?_filterMap _ _ _ h
    have hs : s = x ++ a ++ p := (mem_occurrences a s x p).1 (by rw [hl]; simp)
    obtain ⟨z, hz, hm⟩ := (last_iff b p m).1 h2
    refine ⟨x, z, (key x p hs m z).2 hz, ?_, ?_⟩
    · intro x' m' z' e
      have hmem := (mem_occurrences a s x' (m' ++ b ++ z')).2 (by rw [e]; simp [List.append_assoc])
      rw [hl] at hmem
      have hsort := occurrences_sorted a s
      rw [hl, List.pairwise_append] at hsort
      rcases List.mem_append.1 hmem with hm1 | hm1
      · have := (last_none b _).1 (h1 _ hm1) m' z'
        exact absurd rfl this
      · rcases List.mem_cons.1 hm1 with hm1 | hm1
        · rw [(Prod.mk.inj hm1).1]
        · exact Nat.le_of_lt (List.rel_of_pairwise_cons hsort.2.1 hm1)
    · intro m' z' e
      exact hm m' z' ((key x p hs m' z').1 e)
  · rintro ⟨x, z, e, hmin, hmax⟩
    have hs : s = x ++ a ++ (m ++ b ++ z) := by rw [e]; simp [List.append_assoc]
    have hmem := (mem_occurrences a s x (m ++ b ++ z)).2 hs
    obtain ⟨l₁, l₂, hl⟩ := List.append_of_mem hmem
    unfold between
    rw [hl]
    refine head?_filterMap_of _ _ _ _ _ ?_ ?_
    · rintro ⟨x', p'⟩ hx
      refine (last_none b p').2 fun m' z' e' => ?_
      have hs' : s = x' ++ a ++ p' := (mem_occurrences a s x' p').1 (by rw [hl]; exact List.mem_append_left _ hx)
      have hlt : x'.length < x.length := by
        have hsort := occurrences_sorted a s
        rw [hl, List.pairwise_append] at hsort
        exact hsort.2.2 _ hx (x, m ++ b ++ z) List.mem_cons_self
      have := hmin x' m' z' ((key x' p' hs' m' z').2 e')
      omega
    · refine (last_iff b _ m).2 ⟨z, rfl, fun m' z' e' => ?_⟩
      exact hmax m' z' ((key x _ hs m' z').2 e')

theorem between_none (a b s : Text) : between a b s = none ↔ ∀ x m z, s ≠ x ++ a ++ m ++ b ++ z := by
  unfold between
  rw [List.head?_eq_none_iff, List.filterMap_eq_nil_iff]
  constructor
  · intro h x m z e
    have hmem := (mem_occurrences a s x (m ++ b ++ z)).2 (by rw [e]; simp [List.append_assoc])
    exact (last_none b _).1 (h _ hmem) m z rfl
  · rintro h ⟨x, p⟩ hm
    refine (last_none b p).2 fun m z e => ?_
    refine h x m z ?_
    rw [(mem_occurrences a s x p).1 hm, e]; simp [List.append_assoc]

/-! ## Replacement -/

theorem replaceGo_skip (old new : Text) : ∀ (k s : Text), replaceGo old new k.length (k ++ s) = replaceGo old new 0 s := by
  intro k
  induction k with
  | nil => intro s; rfl
  | cons c k ih =>
      intro s
      rw [List.length_cons, List.cons_append]
      show replaceGo old new k.length (k ++ s) = _
      exact ih s

theorem replaceGo_absent (old new : Text) : ∀ s : Text, (∀ x y, s ≠ x ++ old ++ y) → replaceGo old new 0 s = s := by
  intro s
  induction s with
  | nil => intro _; rfl
  | cons c s ih =>
      intro h
      have hp : ¬ old.isPrefixOf (c :: s) = true := by
        intro hp
        obtain ⟨t, ht⟩ := List.isPrefixOf_iff_prefix.1 hp
        exact h [] t (by rw [← ht]; rfl)
      unfold replaceGo
      rw [if_neg hp, ih]
      intro x y e
      exact h (c :: x) y (by rw [e]; rfl)

theorem replaceGo_once (old new : Text) (ho : old ≠ []) : ∀ (x y : Text), (∀ x' y', x ++ old ++ y = x' ++ old ++ y' → x' = x) → replaceGo old new 0 (x ++ old ++ y) = x ++ new ++ y := by
  intro x
  induction x with
  | nil =>
      intro y h
      obtain ⟨c, o, rfl⟩ := List.exists_cons_of_ne_nil ho
      have hp : (c :: o).isPrefixOf (c :: (o ++ y)) = true := List.isPrefixOf_iff_prefix.2 ⟨y, rfl⟩
      show replaceGo (c :: o) new 0 (c :: (o ++ y)) = _
      unfold replaceGo
      rw [if_pos hp, show (c :: o).length - 1 = o.length from rfl, replaceGo_skip, replaceGo_absent, List.nil_append]
      intro u v e
      have := h (c :: o ++ u) v (by rw [e]; simp [List.append_assoc])
      simp at this
  | cons d x ih =>
      intro y h
      have hp : ¬ old.isPrefixOf (d :: (x ++ old ++ y)) = true := by
        intro hp
        obtain ⟨t, ht⟩ := List.isPrefixOf_iff_prefix.1 hp
        have := h [] t (by rw [List.nil_append, ht]; rfl)
        simp at this
      show replaceGo old new 0 (d :: (x ++ old ++ y)) = _
      unfold replaceGo
      rw [if_neg hp, ih]
      · rfl
      · intro x' y' e
        have := h (d :: x') y' (by simpa using e)
        exact (List.cons.inj this).2

theorem replace_once {old new x y : Text} (ho : old ≠ []) (h : ∀ x' y', x ++ old ++ y = x' ++ old ++ y' → x' = x) : replace (x ++ old ++ y) old new = x ++ new ++ y := by
  unfold replace
  rw [if_neg ho]
  exact replaceGo_once old new ho x y h

/-! ## Words -/

theorem wordGo_skip (isWord : Char → Bool) (w new : Text) : ∀ (k s : Text) (prev : Bool), (∀ c ∈ k, isWord c = true) → (k = [] → prev = true) → wordGo isWord w new prev k.length (k ++ s) = wordGo isWord w new true 0 s := by
  intro k
  induction k with
  | nil => intro s prev _ h; rw [h rfl]; rfl
  | cons c k ih =>
      intro s prev hk _
      rw [List.length_cons, List.cons_append]
      show wordGo isWord w new (isWord c) k.length (k ++ s) = _
      exact ih s _ (fun d hd => hk d (List.mem_cons_of_mem _ hd)) fun _ => hk c (by simp)

/-- Other characters are kept. -/
theorem wordGo_other (isWord : Char → Bool) (w new : Text) (hw : w ≠ []) (hww : ∀ c ∈ w, isWord c = true) : ∀ (t s : Text) (prev : Bool), t ≠ [] → (∀ c ∈ t, isWord c = false) →
    wordGo isWord w new prev 0 (t ++ s) = t ++ wordGo isWord w new false 0 s := by
  intro t
  induction t with
  | nil => intro s prev h; exact absurd rfl h
  | cons c t ih =>
      intro s prev _ ht
      have hc := ht c (by simp)
      have hp : w.isPrefixOf (c :: (t ++ s)) = false := by
        rw [Bool.eq_false_iff]
        intro hp
        obtain ⟨u, hu⟩ := List.isPrefixOf_iff_prefix.1 hp
        obtain ⟨d, w', rfl⟩ := List.exists_cons_of_ne_nil hw
        rw [List.cons_append] at hu
        have := hww d (by simp)
        rw [(List.cons.inj hu).1, hc] at this
        exact absurd this (by simp)
      rw [List.cons_append]
      conv_lhs => unfold wordGo
      rw [hp, Bool.and_false, Bool.false_and, if_neg (by simp), hc]
      cases t with
      | nil => rfl
      | cons d t => rw [ih s false (by simp) fun x hx => ht x (List.mem_cons_of_mem _ hx)]; rfl

/-- The rest of a word is kept. -/
theorem wordGo_rest (isWord : Char → Bool) (w new : Text) : ∀ (t s : Text), (∀ c ∈ t, isWord c = true) → wordGo isWord w new true 0 (t ++ s) = t ++ wordGo isWord w new true 0 s := by
  intro t
  induction t with
  | nil => intro s _; rfl
  | cons c t ih =>
      intro s ht
      rw [List.cons_append]
      conv_lhs => unfold wordGo
      rw [Bool.not_true, Bool.false_and, Bool.false_and, if_neg (by simp), ht c (by simp), ih s fun x hx => ht x (List.mem_cons_of_mem _ hx)]
      rfl

/-- A word is replaced if it is the given one. -/
theorem wordGo_word (isWord : Char → Bool) (w new : Text) (hw : w ≠ []) (hww : ∀ c ∈ w, isWord c = true) (t s : Text) (ht : t ≠ []) (htw : ∀ c ∈ t, isWord c = true) (hs : startsWord isWord s = false) :
    wordGo isWord w new false 0 (t ++ s) = (if t = w then new else t) ++ wordGo isWord w new true 0 s := by
  by_cases h : t = w
  · subst h
    rw [if_pos rfl]
    obtain ⟨c, t', rfl⟩ := List.exists_cons_of_ne_nil ht
    have hp : (c :: t').isPrefixOf (c :: (t' ++ s)) = true := List.isPrefixOf_iff_prefix.2 ⟨s, rfl⟩
    have hd : (c :: (t' ++ s)).drop (c :: t').length = s := by simp
    rw [List.cons_append]
    conv_lhs => unfold wordGo
    rw [hp, hd, hs, if_pos (by rfl), show (c :: t').length - 1 = t'.length from rfl, wordGo_skip isWord _ _ t' s _ (fun x hx => htw x (List.mem_cons_of_mem _ hx)) fun _ => htw c (by simp)]
  · rw [if_neg h]
    have hno : (w.isPrefixOf (t ++ s) && !startsWord isWord ((t ++ s).drop w.length)) = false := by
      rw [Bool.eq_false_iff]
      intro hb
      rw [Bool.and_eq_true] at hb
      obtain ⟨hp, hn⟩ := hb
      obtain ⟨u, hu⟩ := List.isPrefixOf_iff_prefix.1 hp
      rw [← hu, List.drop_left] at hn
      rcases List.append_eq_append_iff.1 hu with ⟨a, ha, hb⟩ | ⟨a, ha, hb⟩
      · -- t = w ++ a
        cases a with
        | nil => exact h (by simpa using ha)
        | cons x a =>
            have : isWord x = true := htw x (by rw [ha]; simp)
            rw [hb] at hn
            simp [startsWord, this] at hn
      · cases a with
        | nil => exact h (by simpa using ha.symm)
        | cons x a =>
            have : isWord x = true := hww x (by rw [ha]; simp)
            rw [hb] at hs
            simp [startsWord, this] at hs
    obtain ⟨c, t', rfl⟩ := List.exists_cons_of_ne_nil ht
    rw [List.cons_append] at hno ⊢
    conv_lhs => unfold wordGo
    rw [Bool.and_assoc, hno, Bool.and_false, if_neg (by simp), htw c (by simp), wordGo_rest isWord w new t' s fun x hx => htw x (List.mem_cons_of_mem _ hx)]
    rfl

/-- The pieces of a text in which a word is put in backquotes. -/
def quotePieces (w : Text) (ts : List Text) : List Text := ts.flatMap fun t => if t = w then [['`'], w, ['`']] else [t]

theorem isWords_head {isWord : Char → Bool} {t : Text} {ts : List Text} (h : IsWords isWord (t :: ts)) : t ≠ [] ∧ ((∀ c ∈ t, isWord c = true) ∨ (∀ c ∈ t, isWord c = false)) ∧ IsWords isWord ts ∧
    ((∀ c ∈ t, isWord c = true) → ∀ t', ts.head? = some t' → ∀ c ∈ t', isWord c = false) := by
  cases ts with
  | nil => exact ⟨h.1, h.2, trivial, fun _ t' ht' => by simp at ht'⟩
  | cons t' ts =>
      refine ⟨h.1, h.2.1.imp And.left id, h.2.2, fun hk u hu => ?_⟩
      simp only [List.head?_cons, Option.some.injEq] at hu
      subst hu
      rcases h.2.1 with h1 | h1
      · exact h1.2
      · obtain ⟨c, u, rfl⟩ := List.exists_cons_of_ne_nil h.1
        have h2 := h1 c (by simp)
        rw [hk c (by simp)] at h2
        exact absurd h2 (by simp)

theorem isWords_other {isWord : Char → Bool} {t : Text} {ts : List Text} (hne : t ≠ []) (ht : ∀ c ∈ t, isWord c = false) (h : IsWords isWord ts) : IsWords isWord (t :: ts) := by
  cases ts with
  | nil => exact ⟨hne, Or.inr ht⟩
  | cons t' ts => exact ⟨hne, Or.inr ht, h⟩

theorem isWords_word {isWord : Char → Bool} {t : Text} {ts : List Text} (hne : t ≠ []) (ht : ∀ c ∈ t, isWord c = true) (h : IsWords isWord ts)
    (hn : ∀ t', ts.head? = some t' → ∀ c ∈ t', isWord c = false) : IsWords isWord (t :: ts) := by
  cases ts with
  | nil => exact ⟨hne, Or.inl ht⟩
  | cons t' ts => exact ⟨hne, Or.inl ⟨ht, hn t' rfl⟩, h⟩

theorem other_ne {isWord : Char → Bool} {t w : Text} (hne : t ≠ []) (hww : ∀ c ∈ w, isWord c = true) (ht : ∀ c ∈ t, isWord c = false) : t ≠ w := by
  rintro rfl
  obtain ⟨c, t', rfl⟩ := List.exists_cons_of_ne_nil hne
  have h1 := ht c (by simp)
  rw [hww c (by simp)] at h1
  exact absurd h1 (by simp)

/-- Every text can be cut into words. -/
theorem exists_words (isWord : Char → Bool) : ∀ s : Text, ∃ ts, IsWords isWord ts ∧ ts.flatten = s := by
  intro s
  induction s with
  | nil => exact ⟨[], trivial, rfl⟩
  | cons c s ih =>
      obtain ⟨ts, h, rfl⟩ := ih
      cases hc : isWord c with
      | false => exact ⟨[c] :: ts, isWords_other (by simp) (by simpa using hc) h, rfl⟩
      | true =>
          cases ts with
          | nil => exact ⟨[[c]], ⟨by simp, Or.inl (by simpa using hc)⟩, rfl⟩
          | cons t ts =>
              obtain ⟨h1, h2, h3, h4⟩ := isWords_head h
              rcases h2 with h2 | h2
              · refine ⟨(c :: t) :: ts, isWords_word (by simp) ?_ h3 (h4 h2), rfl⟩
                intro d hd
                rcases List.mem_cons.1 hd with rfl | hd
                · exact hc
                · exact h2 d hd
              · refine ⟨[c] :: t :: ts, isWords_word (by simp) (by simpa using hc) h ?_, rfl⟩
                intro t' ht'
                simp only [List.head?_cons, Option.some.injEq] at ht'
                subst ht'
                exact h2

theorem isWords_quotePieces {isWord : Char → Bool} {w : Text} (hq : isWord '`' = false) (hw : w ≠ []) (hww : ∀ c ∈ w, isWord c = true) : ∀ ts : List Text, IsWords isWord ts → IsWords isWord (quotePieces w ts) := by
  have hqq : ∀ c ∈ ['`'], isWord c = false := by simpa using hq
  intro ts
  induction ts with
  | nil => intro h; exact h
  | cons t ts ih =>
      intro h
      obtain ⟨h1, h2, h3, h4⟩ := isWords_head h
      have hs : quotePieces w (t :: ts) = (if t = w then [['`'], w, ['`']] else [t]) ++ quotePieces w ts := rfl
      rw [hs]
      by_cases he : t = w
      · rw [if_pos he]
        refine isWords_other (by simp) hqq (isWords_word hw hww (isWords_other (by simp) hqq (ih h3)) ?_)
        intro t' ht'
        change some ['`'] = some t' at ht'
        rw [← Option.some.inj ht']
        exact hqq
      · rw [if_neg he]
        rcases h2 with h2 | h2
        · refine isWords_word h1 h2 (ih h3) ?_
          intro t' ht'
          cases ts with
          | nil => simp [quotePieces] at ht'
          | cons u ts =>
              have hu := h4 h2 u rfl
              have hue : u ≠ w := other_ne (isWords_head h3).1 hww hu
              have : quotePieces w (u :: ts) = u :: quotePieces w ts := by
                show (if u = w then _ else [u]) ++ _ = _
                rw [if_neg hue]; rfl
              change (quotePieces w (u :: ts)).head? = some t' at ht'
              rw [this] at ht'
              simp only [List.head?_cons, Option.some.injEq] at ht'
              subst ht'
              exact hu
        · exact isWords_other h1 h2 (ih h3)

theorem wordGo_tokens (isWord : Char → Bool) (w : Text) (hw : w ≠ []) (hww : ∀ c ∈ w, isWord c = true) : ∀ (ts : List Text) (prev : Bool), IsWords isWord ts →
    (prev = true → ∀ t, ts.head? = some t → ∀ c ∈ t, isWord c = false) → wordGo isWord w (quoted w) prev 0 ts.flatten = (quotePieces w ts).flatten := by
  intro ts
  induction ts with
  | nil => intro prev _ _; rfl
  | cons t ts ih =>
      intro prev h hprev
      have hstep : (quotePieces w (t :: ts)).flatten = (if t = w then quoted w else t) ++ (quotePieces w ts).flatten := by
        show ((if t = w then [['`'], w, ['`']] else [t]) ++ quotePieces w ts).flatten = _
        rw [List.flatten_append]
        by_cases he : t = w
        · rw [if_pos he, if_pos he]; simp [quoted]
        · rw [if_neg he, if_neg he]; simp
      rw [hstep, List.flatten_cons]
      obtain ⟨hne, hkind, htail, hnext⟩ := isWords_head h
      rcases hkind with hk | hk
      · have hp : prev = false := by
          rw [Bool.eq_false_iff]
          intro hp
          exact other_ne hne hk (hprev hp _ rfl) rfl
        have hsw : startsWord isWord ts.flatten = false := by
          cases ts with
          | nil => rfl
          | cons t'' ts =>
              have hne' : t'' ≠ [] := (isWords_head htail).1
              obtain ⟨c, u, rfl⟩ := List.exists_cons_of_ne_nil hne'
              exact hnext hk _ rfl c (by simp)
        rw [hp, wordGo_word isWord w _ hw hww t _ hne hk hsw, ih true htail fun _ => hnext hk]
      · rw [wordGo_other isWord w _ hw hww t _ prev hne hk, ih false htail (fun h => absurd h (by simp)), if_neg (other_ne hne hww hk)]

theorem wordSub_tokens {isWord : Char → Bool} {w : Text} (hw : w ≠ []) (hww : ∀ c ∈ w, isWord c = true) {ts : List Text} (h : IsWords isWord ts) :
    wordSub isWord w (quoted w) ts.flatten = (quotePieces w ts).flatten := wordGo_tokens isWord w hw hww ts false h fun h => absurd h (by simp)

/-- A text with the three names put in backquotes. -/
theorem introDocs_tokens {isWord : Char → Bool} (hq : isWord '`' = false) (hn : ∀ w ∈ names, ∀ c ∈ w, isWord c = true) {ts : List Text} (h : IsWords isWord ts) :
    introDocs isWord ts.flatten = quoteNames ts := by
  have hX := hn "X".toList (by simp [names])
  have hy := hn "y".toList (by simp [names])
  have hf := hn "fit_params".toList (by simp [names])
  have h1 := isWords_quotePieces hq (by decide) hX ts h
  have h2 := isWords_quotePieces hq (by decide) hy _ h1
  have e : introDocs isWord ts.flatten = (quotePieces "fit_params".toList (quotePieces "y".toList (quotePieces "X".toList ts))).flatten := by
    rw [← wordSub_tokens (by decide) hf h2, ← wordSub_tokens (by decide) hy h1, ← wordSub_tokens (by decide) hX h]
    rfl
  rw [e]
  clear e h1 h2 h
  unfold quoteNames
  induction ts with
  | nil => rfl
  | cons t ts ih =>
      have hs : ∀ w, quotePieces w (t :: ts) = (if t = w then [['`'], w, ['`']] else [t]) ++ quotePieces w ts := fun _ => rfl
      have ha : ∀ w (l l' : List Text), quotePieces w (l ++ l') = quotePieces w l ++ quotePieces w l' := fun _ _ _ => List.flatMap_append
      rw [hs, ha, ha, List.flatten_append, ih, List.map_cons, List.flatten_cons]
      congr 1
      by_cases e1 : t = "X".toList
      · subst e1; decide
      · by_cases e2 : t = "y".toList
        · subst e2; decide
        · by_cases e3 : t = "fit_params".toList
          · subst e3; decide
          · rw [if_neg e1, if_neg (by simp only [names, List.mem_cons, List.not_mem_nil, or_false, not_or]; exact ⟨e1, e2, e3⟩)]
            have : ∀ w, t ≠ w → quotePieces w [t] = [t] := by
              intro w hw
              show (if t = w then _ else [t]) ++ [] = [t]
              rw [if_neg hw]; rfl
            rw [this _ e2, this _ e3]
            simp

/-! ## Sections -/

theorem getPreamble_once {docs pre post : Text} (h : OccursOnce parameters docs pre post) : getPreamble docs = .ok pre := by
  have : (occurrences inputsStart docs).getLast?.map Prod.fst = some pre := (last_iff _ _ _).2 ⟨post, h.1, fun p q e => by rw [h.2 p q e]⟩
  unfold getPreamble
  rw [this]; rfl

theorem getInputs_once {docs pre m post : Text} (h : OccursOnce parameters docs pre (m ++ returns ++ post)) (h' : OccursOnce returns docs (pre ++ parameters ++ m) post) :
    getInputs docs = .ok m := by
  have : between inputsStart inputsEnd docs = some m := by
    refine (between_iff _ _ _ _).2 ⟨pre, post, h'.1, ?_, ?_⟩
    · intro x m' z e
      have := h.2 x (m' ++ returns ++ z) (by rw [e]; simp [List.append_assoc]; rfl)
      rw [this]
    · intro m' z e
      have := h'.2 (pre ++ parameters ++ m') z e
      rw [List.append_cancel_left this]
  unfold getInputs
  rw [this]; rfl

theorem getOutputs_once {docs pre post : Text} (h : OccursOnce returns docs pre post) (hn : ∀ x y, post ≠ x ++ emptyLine ++ y) : getOutputs docs = .ok post := by
  have h1 : between inputsEnd outputsEnd docs = none := by
    refine (between_none _ _ _).2 fun x m z e => ?_
    have hx := h.2 x (m ++ emptyLine ++ z) (by rw [e]; simp [List.append_assoc]; rfl)
    have e' : docs = x ++ returns ++ (m ++ emptyLine ++ z) := by rw [e]; simp [List.append_assoc]; rfl
    exact hn m z (occ_unique h.1 e' (by rw [hx])).2
  have h2 : (occurrences inputsEnd docs).head?.map Prod.snd = some post := (first_iff _ _ _).2 ⟨pre, h.1, fun p q e => by rw [h.2 p q e]⟩
  unfold getOutputs
  rw [h1]
  show group _ = _
  rw [h2]; rfl

theorem getOutputs_paragraphs {docs pre o last : Text} (h : OccursOnce returns docs pre (o ++ emptyLine ++ last))
    (hn : ∀ x y, o ++ emptyLine ++ last = x ++ emptyLine ++ y → x.length ≤ o.length) : getOutputs docs = .ok o := by
  have h1 : between inputsEnd outputsEnd docs = some o := by
    refine (between_iff _ _ _ _).2 ⟨pre, last, ?_, ?_, ?_⟩
    · rw [h.1]; simp [List.append_assoc]; rfl
    · intro x m z e
      rw [h.2 x (m ++ emptyLine ++ z) (by rw [e]; simp [List.append_assoc]; rfl)]
    · intro m z e
      have e' : docs = pre ++ returns ++ (m ++ emptyLine ++ z) := by rw [e]; simp [List.append_assoc]; rfl
      exact hn m z (occ_unique h.1 e' rfl).2
  unfold getOutputs
  rw [h1]

/-- One occurrence. -/
theorem occursOnce_of {pat text pre post : Text} (h : occurrences pat text = [(pre, post)]) : OccursOnce pat text pre post := by
  refine ⟨(mem_occurrences pat text pre post).1 (by rw [h]; simp), fun p q e => ?_⟩
  have := (mem_occurrences pat text p q).2 e
  rw [h, List.mem_singleton] at this
  exact (Prod.mk.inj this).1

theorem absent_of {pat text : Text} (h : occurrences pat text = []) : ∀ x y, text ≠ x ++ pat ++ y := by
  intro x y e
  have := (mem_occurrences pat text x y).2 e
  rw [h] at this; simp at this

end Gtda.Props.Docs

namespace Gtda.Props

open Py Gtda.Docs Gtda.Spec.Docs

/-- C134: the three sections of a docstring, for every text. The introduction is the text before the last heading "Parameters"; the section on parameters is the text from the first heading
"Parameters" which has a heading "Returns" after it, to the last heading "Returns"; the section on returned values is the text from the first heading "Returns" which has an empty line
after it to the last empty line, and if there is none, from the first heading "Returns" to the end. A missing section is an `AttributeError`. -/
theorem C134_sections (docs : List Char) :
    (∀ t, getPreamble docs = .ok t ↔ ∃ z, docs = t ++ parameters ++ z ∧ ∀ t' z', docs = t' ++ parameters ++ z' → t'.length ≤ t.length) ∧
    ((∀ a z, docs ≠ a ++ parameters ++ z) → getPreamble docs = .error .attributeError) ∧
    (∀ t, getInputs docs = .ok t ↔ ∃ a z, docs = a ++ parameters ++ t ++ returns ++ z ∧ (∀ a' t' z', docs = a' ++ parameters ++ t' ++ returns ++ z' → a.length ≤ a'.length) ∧
      ∀ t' z', docs = a ++ parameters ++ t' ++ returns ++ z' → t'.length ≤ t.length) ∧
    ((∀ a t z, docs ≠ a ++ parameters ++ t ++ returns ++ z) → getInputs docs = .error .attributeError) ∧
    ((∃ a t z, docs = a ++ returns ++ t ++ emptyLine ++ z) → ∀ t, getOutputs docs = .ok t ↔ ∃ a z, docs = a ++ returns ++ t ++ emptyLine ++ z ∧
      (∀ a' t' z', docs = a' ++ returns ++ t' ++ emptyLine ++ z' → a.length ≤ a'.length) ∧ ∀ t' z', docs = a ++ returns ++ t' ++ emptyLine ++ z' → t'.length ≤ t.length) ∧
    ((∀ a t z, docs ≠ a ++ returns ++ t ++ emptyLine ++ z) → ∀ t, getOutputs docs = .ok t ↔ ∃ a, docs = a ++ returns ++ t ∧ ∀ a' t', docs = a' ++ returns ++ t' → a.length ≤ a'.length) ∧
    ((∀ a z, docs ≠ a ++ returns ++ z) → getOutputs docs = .error .attributeError) := by
  have hg : ∀ (o : Option Text) t, group o = .ok t ↔ o = some t := by
    intro o t
    cases o with
    | none => simp [group]
    | some u => simp [group]
  have hcase : (∃ a t z, docs = a ++ returns ++ t ++ emptyLine ++ z) → getOutputs docs = group (between inputsEnd outputsEnd docs) := by
    rintro ⟨a, t, z, e⟩
    unfold getOutputs
    cases hb : between inputsEnd outputsEnd docs with
    | none => exact absurd e ((Docs.between_none _ _ _).1 hb a t z)
    | some m => rfl
  have hcase' : (∀ a t z, docs ≠ a ++ returns ++ t ++ emptyLine ++ z) → getOutputs docs = group ((occurrences inputsEnd docs).head?.map Prod.snd) := by
    intro h
    unfold getOutputs
    rw [(Docs.between_none inputsEnd outputsEnd docs).2 h]
  refine ⟨fun t => (hg _ t).trans (Docs.last_iff _ _ _), ?_, fun t => (hg _ t).trans (Docs.between_iff _ _ _ _), ?_, ?_, ?_, ?_⟩
  · intro h
    unfold getPreamble
    rw [(Docs.last_none inputsStart docs).2 h]; rfl
  · intro h
    unfold getInputs
    rw [(Docs.between_none inputsStart inputsEnd docs).2 h]; rfl
  · intro h t
    rw [hcase h]
    exact (hg _ t).trans (Docs.between_iff _ _ _ _)
  · intro h t
    rw [hcase' h]
    exact (hg _ t).trans (Docs.first_iff _ _ _)
  · intro h
    rw [hcase' fun a t z e => h a (t ++ emptyLine ++ z) (by rw [e]; simp [List.append_assoc])]
    cases ho : occurrences inputsEnd docs with
    | nil => rfl
    | cons p l =>
        have := (Docs.mem_occurrences inputsEnd docs p.1 p.2).1 (by rw [ho]; simp)
        exact absurd this (h p.1 p.2)

/-- C134: every text can be cut into words, and in the introduction exactly the words `X`, `y` and `fit_params` are put in backquotes, everywhere; other words containing them are
unchanged. -/
theorem C134_words (isWord : Char → Bool) (hq : isWord '`' = false) (hn : ∀ w ∈ names, ∀ c ∈ w, isWord c = true) :
    (∀ s : List Char, ∃ ts, IsWords isWord ts ∧ ts.flatten = s) ∧ ∀ ts : List (List Char), IsWords isWord ts → introDocs isWord ts.flatten = quoteNames ts :=
  ⟨Docs.exists_words isWord, fun _ h => Docs.introDocs_tokens hq hn h⟩

/-- C134: the docstring of `fit_transform`. If each section occurs once in the three docstrings and the section on returned values is a single paragraph, then the new docstring is the
standard introduction with the names of arguments in backquotes, then the parameters documented for `fit`, then what is documented to be returned by `transform`. -/
theorem C134_docs_partial (isWord : Char → Bool) (hq : isWord '`' = false) (hn : ∀ w ∈ names, ∀ c ∈ w, isWord c = true)
    {std inputs₀ outputs₀ fit a inputs z transform b outputs : List Char} {intro : List (List Char)} (hi : IsWords isWord intro)
    (h1 : OccursOnce parameters std intro.flatten (inputs₀ ++ returns ++ outputs₀)) (h2 : OccursOnce returns std (intro.flatten ++ parameters ++ inputs₀) outputs₀)
    (h3 : ∀ x y, outputs₀ ≠ x ++ emptyLine ++ y)
    (h4 : OccursOnce parameters fit a (inputs ++ returns ++ z)) (h5 : OccursOnce returns fit (a ++ parameters ++ inputs) z)
    (h6 : OccursOnce returns transform b outputs) (h7 : ∀ x y, outputs ≠ x ++ emptyLine ++ y)
    (h8 : intro ≠ [] ∧ OccursOnce intro.flatten std [] (parameters ++ inputs₀ ++ returns ++ outputs₀))
    (h9 : inputs₀ ≠ [] ∧ OccursOnce inputs₀ (quoteNames intro ++ parameters ++ inputs₀ ++ returns ++ outputs₀) (quoteNames intro ++ parameters) (returns ++ outputs₀))
    (h10 : outputs₀ ≠ [] ∧ OccursOnce outputs₀ (quoteNames intro ++ parameters ++ inputs ++ returns ++ outputs₀) (quoteNames intro ++ parameters ++ inputs ++ returns) []) :
    makeDocs isWord std (some fit) (some transform) = .ok (quoteNames intro ++ parameters ++ inputs ++ returns ++ outputs) := by
  have hne : intro.flatten ≠ [] := by
    cases intro with
    | nil => exact absurd rfl h8.1
    | cons t ts =>
        obtain ⟨c, u, rfl⟩ := List.exists_cons_of_ne_nil (Docs.isWords_head hi).1
        simp
  have e1 : replace std intro.flatten (quoteNames intro) = quoteNames intro ++ parameters ++ inputs₀ ++ returns ++ outputs₀ := by
    have hs := h8.2.1
    rw [hs, Docs.replace_once hne fun x y e => h8.2.2 x y (by rw [hs, e])]
    simp [List.append_assoc]
  have e2 : replace (quoteNames intro ++ parameters ++ inputs₀ ++ returns ++ outputs₀) inputs₀ inputs = quoteNames intro ++ parameters ++ inputs ++ returns ++ outputs₀ := by
    have hs := h9.2.1
    rw [hs, Docs.replace_once h9.1 fun x y e => h9.2.2 x y (by rw [hs, e])]
    simp [List.append_assoc]
  have e3 : replace (quoteNames intro ++ parameters ++ inputs ++ returns ++ outputs₀) outputs₀ outputs = quoteNames intro ++ parameters ++ inputs ++ returns ++ outputs := by
    have hs := h10.2.1
    rw [hs, Docs.replace_once h10.1 fun x y e => h10.2.2 x y (by rw [hs, e])]
    simp [List.append_assoc]
  unfold makeDocs
  rw [Docs.getPreamble_once h1, Docs.getInputs_once h1 h2, Docs.getOutputs_once h2 h3]
  simp only [ok_bind]
  rw [Docs.getInputs_once h4 h5, Docs.getOutputs_once h6 h7]
  simp only [ok_bind]
  rw [Docs.introDocs_tokens hq hn hi, e1, e2, e3]
  rfl

/-- C134, refuted: the new docstring need not contain what `transform` is documented to return. Of a section with several paragraphs the last one is dropped, whatever it is. -/
theorem C134_refuted_returns {transform b first last : List Char} (h : OccursOnce returns transform b (first ++ emptyLine ++ last))
    (hl : ∀ x y, first ++ emptyLine ++ last = x ++ emptyLine ++ y → x.length ≤ first.length) : getOutputs transform = .ok first := Docs.getOutputs_paragraphs h hl

/-- C134: the decorator changes only the docstring. The class returned has the same methods; `fit_transform` returns the same as before, or raises the same exception, for all arguments;
methods other than `fit_transform` are unchanged. It fails when the class is defined if `fit`, `transform` or `fit_transform` is missing, and if a docstring or a section is missing. -/
theorem C134_behaviour {I O : Type} (isWord : Char → Bool) (std : List Char) (c : Class I O) :
    (∀ c', adapt isWord std c = .ok c' →
      (∀ n, n ≠ "fit_transform" → c' n = c n) ∧
      ∃ m m' fit transform docs, c "fit_transform" = some m ∧ c' "fit_transform" = some m' ∧ (∀ args, m'.call args = m.call args) ∧
        c "fit" = some fit ∧ c "transform" = some transform ∧ makeDocs isWord std fit.doc transform.doc = .ok docs ∧ m'.doc = some docs) ∧
    ((c "fit" = none ∨ c "transform" = none ∨ c "fit_transform" = none) → adapt isWord std c = .error .attributeError) ∧
    (∀ fit transform, c "fit" = some fit → c "transform" = some transform → (fit.doc = none ∨ transform.doc = none) → ∃ e, adapt isWord std c = .error e) := by
  refine ⟨?_, ?_, ?_⟩
  · intro c' h
    unfold adapt getAttr at h
    cases hf : c "fit" with
    | none => rw [hf] at h; exact absurd h (by simp [bind, Except.bind])
    | some fit =>
        cases ht : c "transform" with
        | none => rw [hf, ht] at h; exact absurd h (by simp [bind, Except.bind])
        | some tr =>
            cases ho : c "fit_transform" with
            | none => rw [hf, ht, ho] at h; exact absurd h (by simp [bind, Except.bind])
            | some m =>
                rw [hf, ht, ho] at h
                cases hd : makeDocs isWord std fit.doc tr.doc with
                | error e =>
                    simp only [ok_bind, hd] at h
                    exact absurd h (by simp [bind, Except.bind])
                | ok docs =>
                    simp only [ok_bind, hd] at h
                    have h' := Except.ok.inj h
                    subst h'
                    exact ⟨fun n hn => if_neg hn, m, _, fit, tr, docs, rfl, if_pos rfl, fun _ => rfl, rfl, rfl, hd, rfl⟩
  · intro h
    unfold adapt getAttr
    cases hf : c "fit" with
    | none => rfl
    | some fit =>
        cases ht : c "transform" with
        | none => rfl
        | some tr =>
            cases ho : c "fit_transform" with
            | none => rfl
            | some m => rw [hf, ht, ho] at h; simp at h
  · intro fit tr hf ht h
    cases hd : adapt isWord std c with
    | error e => exact ⟨e, rfl⟩
    | ok c' =>
        exfalso
        unfold adapt getAttr at hd
        rw [hf, ht] at hd
        simp only [ok_bind] at hd
        cases ho : c "fit_transform" with
        | none => rw [ho] at hd; exact absurd hd (by simp [bind, Except.bind])
        | some m =>
            rw [ho] at hd
            simp only [ok_bind] at hd
            cases hm : makeDocs isWord std fit.doc tr.doc with
            | error e => rw [hm] at hd; exact absurd hd (by simp [bind, Except.bind])
            | ok docs =>
                unfold makeDocs at hm
                cases hp : getPreamble std with
                | error e => rw [hp] at hm; exact absurd hm (by simp [bind, Except.bind])
                | ok p =>
                    cases hi : getInputs std with
                    | error e => rw [hp, hi] at hm; exact absurd hm (by simp [bind, Except.bind])
                    | ok i =>
                        cases hou : getOutputs std with
                        | error e => rw [hp, hi, hou] at hm; exact absurd hm (by simp [bind, Except.bind])
                        | ok o =>
                            rw [hp, hi, hou] at hm
                            simp only [ok_bind] at hm
                            cases hfd : fit.doc with
                            | none => rw [hfd] at hm; exact absurd hm (by simp)
                            | some fd =>
                                rw [hfd] at hm h
                                cases htd : tr.doc with
                                | some td => rw [htd] at h; simp at h
                                | none =>
                                    rw [htd] at hm
                                    dsimp only at hm
                                    cases hfi : getInputs fd with
                                    | error e => rw [hfi] at hm; exact absurd hm (by simp [bind, Except.bind])
                                    | ok x => rw [hfi] at hm; exact absurd hm (by simp [bind, Except.bind])

/-! ## Concrete cases -/

/-- ASCII word characters. -/
def Docs.asciiWord (c : Char) : Bool := c.isAlphanum || c == '_'

/-- An introduction as in scikit-learn, cut into words. -/
def Docs.exIntro : List (List Char) := ["Fits".toList, " ".toList, "to".toList, " ".toList, "X".toList, " ".toList, "with".toList, " ".toList, "fit_params".toList, ".\n\n".toList]

/-- A standard docstring. -/
def Docs.exStd : List Char := "Fits to X with fit_params.\n\nParameters\n----------\nX : array\n\nReturns\n-------\nX_new : array".toList

/-- A docstring of `fit`. -/
def Docs.exFit : List Char := "Fit.\n\nParameters\n----------\nX : list of graphs\n\nReturns\n-------\nself : object".toList

/-- A docstring of `transform`. -/
def Docs.exTransform : List Char := "Do it.\n\nParameters\n----------\nX : list\n\nReturns\n-------\nXt : diagrams".toList

/-- The shape of the docstring of `TakensEmbedding.transform`, gtda/time_series/embedding.py:676-715: the list of cases at the end is a paragraph of its own. -/
def Docs.exTakens : List Char := "Compute.\n\nReturns\n-------\nXt : ndarray\n    The shapes depend on `flatten`:\n\n    - if True, 3D\n    - if False, 4D".toList

example : IsWords Docs.asciiWord Docs.exIntro ∧ Docs.exIntro.flatten = "Fits to X with fit_params.\n\n".toList ∧ quoteNames Docs.exIntro = "Fits to `X` with `fit_params`.\n\n".toList := by
  refine ⟨?_, by decide +kernel, by decide +kernel⟩
  simp only [Docs.exIntro, IsWords]
  decide +kernel

/-- The hypotheses of `C134_docs_partial` hold, and so the new docstring is as expected. -/
example : makeDocs Docs.asciiWord Docs.exStd (some Docs.exFit) (some Docs.exTransform) =
    .ok "Fits to `X` with `fit_params`.\n\nParameters\n----------\nX : list of graphs\n\nReturns\n-------\nXt : diagrams".toList := by
  have hi : IsWords Docs.asciiWord Docs.exIntro := by
    simp only [Docs.exIntro, IsWords]
    decide +kernel
  have := C134_docs_partial Docs.asciiWord (by decide +kernel) (by decide +kernel) (std := Docs.exStd) (inputs₀ := "X : array\n\n".toList) (outputs₀ := "X_new : array".toList) (fit := Docs.exFit)
    (a := "Fit.\n\n".toList) (inputs := "X : list of graphs\n\n".toList) (z := "self : object".toList) (transform := Docs.exTransform)
    (b := "Do it.\n\nParameters\n----------\nX : list\n\n".toList) (outputs := "Xt : diagrams".toList) hi
    (Docs.occursOnce_of (by decide +kernel)) (Docs.occursOnce_of (by decide +kernel)) (Docs.absent_of (by decide +kernel)) (Docs.occursOnce_of (by decide +kernel))
    (Docs.occursOnce_of (by decide +kernel)) (Docs.occursOnce_of (by decide +kernel)) (Docs.absent_of (by decide +kernel))
    ⟨by decide +kernel, Docs.occursOnce_of (by decide +kernel)⟩ ⟨by decide +kernel, Docs.occursOnce_of (by decide +kernel)⟩ ⟨by decide +kernel, Docs.occursOnce_of (by decide +kernel)⟩
  rw [this]
  decide +kernel

/-- C134, refuted for standard docstrings with an empty section: each section occurs once in each docstring, but the parameters of `fit` are then inserted before every character of the text. -/
theorem C134_refuted_empty : ∃ std fit transform : List Char,
    OccursOnce parameters std "Do\n".toList (returns ++ "out".toList) ∧ OccursOnce returns std ("Do\n".toList ++ parameters) "out".toList ∧
    getInputs fit = .ok "p.".toList ∧ getOutputs transform = .ok "new".toList ∧
    ∀ isWord, makeDocs isWord std (some fit) (some transform) =
      .ok (("Do\n".toList ++ parameters ++ returns ++ "out".toList).flatMap (fun c => "p.".toList ++ [c]) ++ "p.".toList) := by
  refine ⟨"Do\nParameters\n----------\nReturns\n-------\nout".toList, "Parameters\n----------\np.Returns\n-------\n".toList, "Returns\n-------\nnew".toList, Docs.occursOnce_of (by decide +kernel),
    Docs.occursOnce_of (by decide +kernel), by decide +kernel, by decide +kernel, fun isWord => ?_⟩
  have h1 : getPreamble "Do\nParameters\n----------\nReturns\n-------\nout".toList = .ok "Do\n".toList := by decide +kernel
  have h2 : introDocs isWord "Do\n".toList = "Do\n".toList := by
    have hX : ∀ (w new : List Char) (b : Bool), (∀ c ∈ "Do\n".toList, w.head? ≠ some c) → w ≠ [] → wordGo isWord w new b 0 "Do\n".toList = "Do\n".toList := by
      intro w new b h hw
      obtain ⟨a, t, rfl⟩ := List.exists_cons_of_ne_nil hw
      have hD : a ≠ 'D' := fun e => h 'D' (by decide) (by simp [e])
      have ho : a ≠ 'o' := fun e => h 'o' (by decide) (by simp [e])
      have hN : a ≠ '\n' := fun e => h '\n' (by decide) (by simp [e])
      show wordGo isWord (a :: t) new b 0 ['D', 'o', '\n'] = ['D', 'o', '\n']
      simp [wordGo, List.isPrefixOf, hD, ho, hN]
    unfold introDocs wordSub
    rw [hX _ _ _ (by decide +kernel) (by decide +kernel), hX _ _ _ (by decide +kernel) (by decide +kernel), hX _ _ _ (by decide +kernel) (by decide +kernel)]
  unfold makeDocs
  rw [h1, ok_bind, h2]
  decide +kernel

/-- The list of cases is missing in the docstring of `fit_transform`. -/
example : getOutputs Docs.exTakens = .ok "Xt : ndarray\n    The shapes depend on `flatten`:".toList := by
  refine C134_refuted_returns (b := "Compute.\n\n".toList) (last := "    - if True, 3D\n    - if False, 4D".toList) (Docs.occursOnce_of (by decide +kernel)) ?_
  intro x y e
  rw [(Docs.occursOnce_of (pat := emptyLine) (pre := "Xt : ndarray\n    The shapes depend on `flatten`:".toList) (post := "    - if True, 3D\n    - if False, 4D".toList) (by decide +kernel)).2 x y e]

example : getInputs Docs.exTakens = .error .attributeError ∧ getPreamble Docs.exTakens = .error .attributeError ∧ getOutputs "Nothing.".toList = .error .attributeError := by
  refine ⟨?_, ?_, ?_⟩ <;> decide +kernel

/-- `X_new` and `fit_params_` are other words; quoting twice quotes twice. -/
example : introDocs Docs.asciiWord "X_new, X, Xy, y.".toList = "X_new, `X`, Xy, `y`.".toList ∧ introDocs Docs.asciiWord "`X`".toList = "``X``".toList := by
  refine ⟨?_, ?_⟩ <;> decide +kernel

example : ∃ c', adapt Docs.asciiWord Docs.exStd (I := Nat) (O := Nat) (fun n => if n = "fit" then some ⟨some Docs.exFit, fun _ => .ok 0⟩ else if n = "transform" then some ⟨some Docs.exTransform, fun k => .ok k⟩
    else if n = "fit_transform" then some ⟨none, fun k => .ok (k + 1)⟩ else none) = .ok c' := by
  unfold adapt getAttr
  simp only [if_true, show ("transform" = "fit") = False by decide, show ("fit_transform" = "fit") = False by decide, show ("fit_transform" = "transform") = False by decide, if_false, ok_bind]
  have : (makeDocs Docs.asciiWord Docs.exStd (some Docs.exFit) (some Docs.exTransform)).isOk = true := by decide +kernel
  cases hm : makeDocs Docs.asciiWord Docs.exStd (some Docs.exFit) (some Docs.exTransform) with
  | error e => rw [hm] at this; exact absurd this (by simp [Except.isOk, Except.toBool])
  | ok d => exact ⟨_, rfl⟩

end Gtda.Props
