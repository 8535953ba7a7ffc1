import Verif.Lemmas.Nerve
import Mathlib.Algebra.Order.BigOperators.Group.List
import Mathlib.Logic.Relation

set_option autoImplicit false

/-!
# Helper lemmas for `Nerve`: edge data and contraction mapping
-/

namespace Gtda.Mapper
open Gtda.Py Gtda.Spec

variable {P C : Type} [DecidableEq P]

/-- The entry appended for one pair of nodes, if any. -/
def edgeOf (minInt : Int) (contract : Bool) (t : (Node P C × Nat) × (Node P C × Nat)) : Option ((Nat × Nat) × Nat × List Nat) :=
  let inter := intersect1d t.1.1.elements t.2.1.elements
  if t.1.1.set ≠ t.2.1.set ∧ inter.length ≠ 0 ∧ minInt ≤ (inter.length : Int) ∧
      (contract = true → inter.length ≠ t.2.1.elements.length ∧ inter.length ≠ t.1.1.elements.length) then
    some ((t.1.2, t.2.2), inter.length, inter)
  else none

theorem edgeStep_pairs (minInt : Int) (contract : Bool) (st : EdgeData) (t : (Node P C × Nat) × (Node P C × Nat)) :
    (edgeStep minInt contract st t).pairs = st.pairs ++ (edgeOf minInt contract t).toList := by
  unfold edgeStep edgeOf subsetCheck metadataAppend
  simp only
  generalize intersect1d t.1.1.elements t.2.1.elements = inter
  by_cases h1 : t.1.1.set = t.2.1.set
  · simp [h1]
  · by_cases h2 : inter.length = 0
    · simp [h2]
    · cases contract
      · by_cases h3 : minInt ≤ (inter.length : Int) <;> simp [h1, h2, h3]
      · by_cases h4 : inter.length = t.2.1.elements.length
        · have h2' : ¬ t.2.1.elements.length = 0 := by omega
          have h2'' : t.2.1.elements ≠ [] := by intro h; rw [h] at h2'; exact h2' rfl
          simp [h1, h4, h2'']
        · by_cases h5 : inter.length = t.1.1.elements.length
          · simp only [h1, h2, h4, if_false, if_true, h5, ne_eq, not_false_eq_true, not_true_eq_false, and_false, forall_const]
            rw [if_pos (by omega), if_neg (by omega)]
            simp
          · by_cases h3 : minInt ≤ (inter.length : Int) <;> simp [h1, h2, h3, h4, h5]

theorem foldl_edgeStep_pairs (minInt : Int) (contract : Bool) (T : List ((Node P C × Nat) × (Node P C × Nat))) (st : EdgeData) :
    (T.foldl (edgeStep minInt contract) st).pairs = st.pairs ++ T.filterMap (edgeOf minInt contract) := by
  induction T generalizing st with
  | nil => simp
  | cons t T ih =>
    rw [List.foldl_cons, ih, edgeStep_pairs, List.filterMap_cons, List.append_assoc]
    cases edgeOf minInt contract t <;> simp

/-- Which edges are generated. -/
theorem mem_generateEdgeData (minInt : Int) (contract : Bool) (nodes : List (Node P C)) (i j w : Nat) (I : List Nat) :
    ((i, j), w, I) ∈ (generateEdgeData minInt contract nodes).pairs ↔
      ∃ u v, nodes[i]? = some u ∧ nodes[j]? = some v ∧ i < j ∧ u.set ≠ v.set ∧ I = intersect1d u.elements v.elements ∧ w = I.length ∧
        I.length ≠ 0 ∧ minInt ≤ (I.length : Int) ∧ (contract = true → I.length ≠ v.elements.length ∧ I.length ≠ u.elements.length) := by
  unfold generateEdgeData
  rw [foldl_edgeStep_pairs, List.nil_append, List.mem_filterMap]
  constructor
  · rintro ⟨⟨⟨u, a⟩, ⟨v, b⟩⟩, hm, he⟩
    have hm' := (mem_combinations2_zipIdx nodes 0 u v a b).1 hm
    unfold edgeOf at he
    simp only at he
    split at he
    · rename_i h
      simp only [Option.some.injEq, Prod.mk.injEq] at he
      obtain ⟨⟨rfl, rfl⟩, rfl, rfl⟩ := he
      exact ⟨u, v, by simpa using hm'.2.2.1, by simpa using hm'.2.2.2, hm'.2.1, h.1, rfl, rfl, h.2.1, h.2.2.1, h.2.2.2⟩
    · simp at he
  · rintro ⟨u, v, hu, hv, hij, hs, rfl, rfl, h0, hmin, hc⟩
    refine ⟨((u, i), (v, j)), (mem_combinations2_zipIdx nodes 0 u v i j).2 ⟨by omega, hij, by simpa using hu, by simpa using hv⟩, ?_⟩
    unfold edgeOf
    simp only
    rw [if_pos ⟨hs, h0, hmin, hc⟩]

theorem nodup_generateEdgeData (minInt : Int) (contract : Bool) (nodes : List (Node P C)) :
    ((generateEdgeData minInt contract nodes).pairs.map Prod.fst).Nodup := by
  unfold generateEdgeData
  rw [foldl_edgeStep_pairs, List.nil_append, List.map_filterMap]
  have h1 : (nodes.zipIdx.map Prod.snd).Nodup := by
    rw [List.zipIdx_map_snd]; exact List.nodup_range' 
  have key : ∀ l : List (Node P C × Nat), (l.map Prod.snd).Nodup → ((combinations2 l).map fun t => (t.1.2, t.2.2)).Nodup := by
    intro l hl
    have : (combinations2 l).map (fun t => (t.1.2, t.2.2)) = combinations2 (l.map Prod.snd) := by
      clear hl
      induction l with
      | nil => rfl
      | cons a t ih => simp [combinations2, ih]
    rw [this]; exact nodup_combinations2 _ hl
  have h2 := key _ h1
  generalize combinations2 nodes.zipIdx = T at h2
  induction T with
  | nil => simp
  | cons t T ih =>
    rw [List.map_cons, List.nodup_cons] at h2
    rw [List.filterMap_cons]
    cases he : edgeOf minInt contract t with
    | none => simpa [he] using ih h2.2
    | some p =>
      simp only [Option.map_some, List.nodup_cons]
      refine ⟨?_, ih h2.2⟩
      intro hm
      apply h2.1
      obtain ⟨t', ht', hp⟩ := List.mem_filterMap.1 hm
      refine List.mem_map.2 ⟨t', ht', ?_⟩
      have aux : ∀ (t : (Node P C × Nat) × (Node P C × Nat)) q, edgeOf minInt contract t = some q → q.1 = (t.1.2, t.2.2) := by
        intro t q hq
        unfold edgeOf at hq
        simp only at hq
        split at hq
        · cases hq; rfl
        · cases hq
      cases he' : edgeOf minInt contract t' with
      | none => simp [he'] at hp
      | some q =>
        simp only [he', Option.map_some, Option.some.injEq] at hp
        rw [← aux t' q he', ← aux t p he, hp]

/-- What the contraction mapping satisfies. -/
structure MapInv (nodes : List (Node P C)) (T : List ((Node P C × Nat) × (Node P C × Nat))) (m : List Nat) : Prop where
  len : m.length = nodes.length
  up : ∀ x y : Nat, m[x]? = some y → y ≠ x → ∃ u v, nodes[x]? = some u ∧ nodes[y]? = some v ∧ u.elements ⊆ v.elements ∧
    (v.elements ⊆ u.elements → y < x)
  moved : ∀ t ∈ T, t.1.1.set ≠ t.2.1.set → (intersect1d t.1.1.elements t.2.1.elements).length ≠ 0 →
    (t.2.1.elements ⊆ t.1.1.elements → m[t.2.2]? ≠ some t.2.2) ∧
    (t.1.1.elements ⊆ t.2.1.elements → ¬ t.2.1.elements ⊆ t.1.1.elements → m[t.1.2]? ≠ some t.1.2)

theorem intersect_len_right (a b : List Nat) (hb : b.Nodup) : (intersect1d a b).length = b.length ↔ b ⊆ a := by
  have hn := nodup_intersect1d a b
  have hsub : intersect1d a b ⊆ b := fun x hx => ((mem_intersect1d a b x).1 hx).2
  constructor
  · intro h x hx
    have hp := (hn.subperm hsub).perm_of_length_le (by omega)
    exact ((mem_intersect1d a b x).1 (hp.mem_iff.2 hx)).1
  · intro h
    have h2 : b ⊆ intersect1d a b := fun x hx => (mem_intersect1d a b x).2 ⟨h hx, hx⟩
    have := (hb.subperm h2).length_le
    have := (hn.subperm hsub).length_le
    omega

theorem intersect_len_left (a b : List Nat) (ha : a.Nodup) : (intersect1d a b).length = a.length ↔ a ⊆ b := by
  have hn := nodup_intersect1d a b
  have hsub : intersect1d a b ⊆ a := fun x hx => ((mem_intersect1d a b x).1 hx).1
  constructor
  · intro h x hx
    have hp := (hn.subperm hsub).perm_of_length_le (by omega)
    exact ((mem_intersect1d a b x).1 (hp.mem_iff.2 hx)).2
  · intro h
    have h2 : a ⊆ intersect1d a b := fun x hx => (mem_intersect1d a b x).2 ⟨hx, h hx⟩
    have := (ha.subperm h2).length_le
    have := (hn.subperm hsub).length_le
    omega

theorem mapInv_set {nodes : List (Node P C)} {T : List ((Node P C × Nat) × (Node P C × Nat))} {m : List Nat}
    (h : MapInv nodes T m) (x y : Nat) (hxy : y ≠ x) (u v : Node P C) (hu : nodes[x]? = some u) (hv : nodes[y]? = some v)
    (hsub : u.elements ⊆ v.elements) (hlt : v.elements ⊆ u.elements → y < x) : MapInv nodes T (m.set x y) := by
  refine ⟨by simpa using h.len, ?_, ?_⟩
  · intro a b hab hne
    by_cases hax : x = a
    · subst hax
      rw [List.getElem?_set_self'] at hab
      have : b = y := by
        cases hm : m[x]? with
        | none => simp [hm] at hab
        | some q => simp [hm] at hab; exact hab.symm
      subst this
      exact ⟨u, v, hu, hv, hsub, hlt⟩
    · rw [List.getElem?_set_ne hax] at hab
      exact h.up a b hab hne
  · have aux : ∀ z : Nat, m[z]? ≠ some z → (m.set x y)[z]? ≠ some z := by
      intro z hz
      by_cases hxz : x = z
      · subst hxz
        rw [List.getElem?_set_self']
        cases hm : m[x]? with
        | none => simp
        | some q => simpa using hxy
      · rwa [List.getElem?_set_ne hxz]
    intro t ht hs hi
    have := h.moved t ht hs hi
    exact ⟨fun h1 => aux _ (this.1 h1), fun h1 h2 => aux _ (this.2 h1 h2)⟩

theorem set_moved (m : List Nat) (x y : Nat) (hxy : y ≠ x) : (m.set x y)[x]? ≠ some x := by
  rw [List.getElem?_set_self']
  cases hm : m[x]? with
  | none => simp
  | some q => simpa using hxy

theorem mapInv_step {nodes : List (Node P C)} (hnd : ∀ u ∈ nodes, u.elements.Nodup)
    {T : List ((Node P C × Nat) × (Node P C × Nat))} {st : EdgeData} (minInt : Int) (h : MapInv nodes T st.mapping)
    (t : (Node P C × Nat) × (Node P C × Nat)) (h1 : nodes[t.1.2]? = some t.1.1) (h2 : nodes[t.2.2]? = some t.2.1)
    (hlt : t.1.2 < t.2.2) : MapInv nodes (T ++ [t]) (edgeStep minInt true st t).mapping := by
  have hext : ∀ m, MapInv nodes T m → (t.1.1.set ≠ t.2.1.set → (intersect1d t.1.1.elements t.2.1.elements).length ≠ 0 →
      (t.2.1.elements ⊆ t.1.1.elements → m[t.2.2]? ≠ some t.2.2) ∧
      (t.1.1.elements ⊆ t.2.1.elements → ¬ t.2.1.elements ⊆ t.1.1.elements → m[t.1.2]? ≠ some t.1.2)) → MapInv nodes (T ++ [t]) m := by
    intro m hm hx
    refine ⟨hm.len, hm.up, ?_⟩
    intro t' ht'
    rw [List.mem_append, List.mem_singleton] at ht'
    rcases ht' with h' | rfl
    · exact hm.moved t' h'
    · exact hx
  have hn1 := hnd _ (List.mem_of_getElem? h1)
  have hn2 := hnd _ (List.mem_of_getElem? h2)
  unfold edgeStep
  simp only
  by_cases hs : t.1.1.set = t.2.1.set
  · rw [if_pos hs]
    exact hext _ h (fun hs' => absurd hs hs')
  rw [if_neg hs]
  by_cases h0 : (intersect1d t.1.1.elements t.2.1.elements).length = 0
  · rw [if_neg (by simpa using h0)]
    exact hext _ h (fun _ h0' => absurd h0 h0')
  rw [if_pos h0, if_pos trivial]
  unfold subsetCheck
  have hr := intersect_len_right t.1.1.elements t.2.1.elements hn2
  have hl := intersect_len_left t.1.1.elements t.2.1.elements hn1
  by_cases ha : t.2.1.elements ⊆ t.1.1.elements
  · rw [if_pos (hr.2 ha)]
    refine hext _ (mapInv_set h _ _ (by omega) _ _ h2 h1 ha (fun _ => hlt)) ?_
    intro _ _
    exact ⟨fun _ => set_moved _ _ _ (by omega), fun _ h' => absurd ha h'⟩
  · rw [if_neg (fun h => ha (hr.1 h))]
    by_cases hb : t.1.1.elements ⊆ t.2.1.elements
    · rw [if_pos (hl.2 hb)]
      refine hext _ (mapInv_set h _ _ (by omega) _ _ h1 h2 hb (fun h' => absurd h' ha)) ?_
      intro _ _
      exact ⟨fun h' => absurd h' ha, fun _ _ => set_moved _ _ _ (by omega)⟩
    · rw [if_neg (fun h => hb (hl.1 h))]
      have : (metadataAppend minInt st t.1.2 t.2.2 (intersect1d t.1.1.elements t.2.1.elements)).mapping = st.mapping := by
        unfold metadataAppend; split <;> rfl
      rw [this]
      exact hext _ h (fun _ _ => ⟨fun h' => absurd h' ha, fun h' => absurd h' hb⟩)

theorem mapInv_generate {nodes : List (Node P C)} (hnd : ∀ u ∈ nodes, u.elements.Nodup) (minInt : Int) :
    MapInv nodes (combinations2 nodes.zipIdx) (generateEdgeData minInt true nodes).mapping := by
  have key : ∀ (T' T : List ((Node P C × Nat) × (Node P C × Nat))) (st : EdgeData),
      (∀ t ∈ T', nodes[t.1.2]? = some t.1.1 ∧ nodes[t.2.2]? = some t.2.1 ∧ t.1.2 < t.2.2) → MapInv nodes T st.mapping →
      MapInv nodes (T ++ T') (T'.foldl (edgeStep minInt true) st).mapping := by
    intro T'
    induction T' with
    | nil => intro T st _ h; simpa using h
    | cons t T' ih =>
      intro T st hT h
      have ht := hT t (by simp)
      have := ih (T ++ [t]) (edgeStep minInt true st t) (fun t' ht' => hT t' (by simp [ht']))
        (mapInv_step hnd minInt h t ht.1 ht.2.1 ht.2.2)
      simpa [List.append_assoc] using this
  have := key (combinations2 nodes.zipIdx) [] ⟨[], List.range nodes.length⟩ ?_ ⟨by simp, ?_, by simp⟩
  · unfold generateEdgeData; simpa using this
  · rintro ⟨⟨u, i⟩, ⟨v, j⟩⟩ ht
    have := (mem_combinations2_zipIdx nodes 0 u v i j).1 ht
    exact ⟨by simpa using this.2.2.1, by simpa using this.2.2.2, this.2.1⟩
  · intro x y hxy hne
    simp only at hxy
    rw [List.getElem?_eq_some_iff] at hxy
    obtain ⟨h, rfl⟩ := hxy
    exact absurd (List.getElem_range h) hne

/-! ### The limit of the mapping -/

/-- Decreases along the mapping. -/
def rankOf (N : Nat) (nodes : List (Node P C)) (x : Nat) : Nat :=
  match nodes[x]? with
  | some u => (N - u.elements.length) * (nodes.length + 1) + x
  | none => 0

theorem rank_decreases {nodes : List (Node P C)} {T} {m : List Nat} (h : MapInv nodes T m) (N : Nat)
    (hnd : ∀ u ∈ nodes, u.elements.Nodup) (hN : ∀ u ∈ nodes, u.elements.length ≤ N)
    {x y : Nat} (hxy : m[x]? = some y) (hne : y ≠ x) : rankOf N nodes y < rankOf N nodes x := by
  obtain ⟨u, v, hu, hv, hsub, hlt⟩ := h.up x y hxy hne
  unfold rankOf
  rw [hu, hv]
  simp only
  have hy : y < nodes.length := by
    by_contra hh; rw [List.getElem?_eq_none (by omega)] at hv; cases hv
  have hun := hnd u (List.mem_of_getElem? hu)
  have hvN := hN v (List.mem_of_getElem? hv)
  have hlen := (hun.subperm hsub).length_le
  by_cases hvu : v.elements ⊆ u.elements
  · have := hlt hvu
    have hlen' := ((hnd v (List.mem_of_getElem? hv)).subperm hvu).length_le
    have : u.elements.length = v.elements.length := by omega
    rw [this]; omega
  · have hl : u.elements.length < v.elements.length := by
      rcases Nat.lt_or_ge u.elements.length v.elements.length with h | h
      · exact h
      · exact absurd (fun z hz => ((hun.subperm hsub).perm_of_length_le h).mem_iff.2 hz) hvu
    have : N - u.elements.length = (N - v.elements.length) + (v.elements.length - u.elements.length) := by omega
    rw [this, Nat.add_mul]
    have : 1 * (nodes.length + 1) ≤ (v.elements.length - u.elements.length) * (nodes.length + 1) := Nat.mul_le_mul_right _ (by omega)
    omega

/-- `t` is what the mapping sends `x` to after sufficiently many applications. -/
structure IsLimit (m : List Nat) (x t : Nat) : Prop where
  fixed : m[t]? = some t
  path : Relation.ReflTransGen (fun a b : Nat => m[a]? = some b) x t

theorem IsLimit.self {m : List Nat} {x t : Nat} (h : IsLimit m x t) (hx : m[x]? = some x) : t = x := by
  have := h.path
  induction this with
  | refl => rfl
  | @tail b c hab hbc ih =>
    have hb : b = x := by
      clear ih hbc h
      induction hab with
      | refl => rfl
      | tail _ h2 ih => rw [ih, hx] at h2; cases h2; rfl
    rw [hb, hx] at hbc; cases hbc; rfl

theorem IsLimit.sub {nodes : List (Node P C)} {T} {m : List Nat} (h : MapInv nodes T m) {x t : Nat} (hl : IsLimit m x t)
    {u : Node P C} (hu : nodes[x]? = some u) : ∃ v, nodes[t]? = some v ∧ u.elements ⊆ v.elements := by
  have := hl.path
  clear hl
  induction this with
  | refl => exact ⟨u, hu, fun _ h => h⟩
  | @tail b c _ hbc ih =>
    obtain ⟨v, hv, hs⟩ := ih
    by_cases hcb : c = b
    · rw [hcb]; exact ⟨v, hv, hs⟩
    · obtain ⟨v', w, hv', hw, hs', -⟩ := h.up _ _ hbc hcb
      rw [hv] at hv'; cases hv'
      exact ⟨w, hw, fun _ hh => hs' (hs hh)⟩

theorem limitLoop_ok {nodes : List (Node P C)} {T} {m : List Nat} (h : MapInv nodes T m) (N : Nat)
    (hnd : ∀ u ∈ nodes, u.elements.Nodup) (hN : ∀ u ∈ nodes, u.elements.length ≤ N) :
    ∀ (r x : Nat), rankOf N nodes x = r → x < nodes.length →
      (∀ fuel y z, r ≤ fuel → m[x]? = some y → m[y]? = some z → ∃ t, limitLoop m fuel x z = some t ∧ IsLimit m x t) ∧
      (∀ fuel y, r ≤ fuel → m[x]? = some y → ∃ t, limitLoop m fuel x y = some t ∧ IsLimit m x t) := by
  intro r
  induction r using Nat.strong_induction_on with
  | _ r ih =>
    intro x hr hx
    have hstep : ∀ fuel y w, r ≤ fuel → m[x]? = some y → y ≠ x → x ≠ w →
        ∃ t, limitLoop m fuel x w = some t ∧ IsLimit m x t := by
      intro fuel y w hf hy hne hxw
      obtain ⟨u, v, hu, hv, hsub, -⟩ := h.up x y hy hne
      have hyn : y < nodes.length := by
        by_contra hh; rw [List.getElem?_eq_none (by omega)] at hv; cases hv
      have hdec := rank_decreases h N hnd hN hy hne
      have hym : y < m.length := by rw [h.len]; exact hyn
      obtain ⟨z, hz⟩ : ∃ z, m[y]? = some z := ⟨_, List.getElem?_eq_getElem hym⟩
      have hzn : z < nodes.length := by
        by_cases hzy : z = y
        · omega
        · obtain ⟨_, v', _, hv', _⟩ := h.up y z hz hzy
          by_contra hh; rw [List.getElem?_eq_none (by omega)] at hv'; cases hv'
      obtain ⟨a, ha⟩ : ∃ a, m[z]? = some a := ⟨_, List.getElem?_eq_getElem (by rw [h.len]; exact hzn)⟩
      obtain ⟨f', rfl⟩ : ∃ f', fuel = f' + 1 := ⟨fuel - 1, by omega⟩
      obtain ⟨t, ht, hlim⟩ := (ih (rankOf N nodes y) (by omega) y rfl hyn).1 f' z a (by omega) hz ha
      refine ⟨t, ?_, hlim.fixed, ?_⟩
      · rw [limitLoop, if_pos hxw]
        simp only [hy, hz, ha]
        exact ht
      · exact Relation.ReflTransGen.head hy hlim.path
    refine ⟨?_, ?_⟩
    · intro fuel y z hf hy hz
      by_cases hxz : x = z
      · have hyx : y = x := by
          by_contra hne
          have h1 := rank_decreases h N hnd hN hy hne
          have h2 := rank_decreases h N hnd hN hz (by rw [← hxz]; exact fun h => hne h.symm)
          rw [← hxz] at h2; omega
        subst hyx
        refine ⟨y, ?_, hy, .refl⟩
        rw [limitLoop.eq_def]; simp [← hxz]
      · have hne : y ≠ x := by
          rintro rfl
          rw [hy] at hz; cases hz; exact hxz rfl
        exact hstep fuel y z hf hy hne hxz
    · intro fuel y hf hy
      by_cases hxy : x = y
      · refine ⟨x, ?_, by rw [hy, hxy], .refl⟩
        rw [limitLoop.eq_def]; simp [hxy]
      · exact hstep fuel y y hf hy (fun h => hxy h.symm) hxy

theorem option_mapM_exists {α β : Type _} (f : α → Option β) (l : List α) (R : α → β → Prop)
    (h : ∀ a ∈ l, ∃ b, f a = some b ∧ R a b) : ∃ r, l.mapM f = some r ∧ List.Forall₂ R l r := by
  induction l with
  | nil => exact ⟨[], rfl, .nil⟩
  | cons a t ih =>
    obtain ⟨b, hb, hR⟩ := h a (by simp)
    obtain ⟨r, hr, hF⟩ := ih (fun x hx => h x (by simp [hx]))
    exact ⟨b :: r, by simp [List.mapM_cons, hb, hr], .cons hR hF⟩

/-- `_limit_mapping` terminates and returns limits. -/
theorem limitMapping_ok {nodes : List (Node P C)} {T} {m : List Nat} (h : MapInv nodes T m)
    (hnd : ∀ u ∈ nodes, u.elements.Nodup) :
    ∃ k, ∀ fuel, k ≤ fuel → ∃ lim, limitMapping fuel m = some lim ∧ lim.length = nodes.length ∧
      ∀ x t, lim[x]? = some t → IsLimit m x t := by
  obtain ⟨N, hN⟩ : ∃ N, ∀ u ∈ nodes, u.elements.length ≤ N := by
    refine ⟨(nodes.map fun u => u.elements.length).sum, fun u hu => ?_⟩
    exact List.single_le_sum (by simp) _ (List.mem_map_of_mem hu)
  refine ⟨((List.range nodes.length).map (rankOf N nodes)).sum, fun fuel hf => ?_⟩
  have := option_mapM_exists (fun p : Nat × Nat => limitLoop m fuel p.2 p.1) m.zipIdx
    (fun p t => IsLimit m p.2 t) ?_
  · obtain ⟨lim, hl, hF⟩ := this
    refine ⟨lim, hl, by rw [← hF.length_eq, List.length_zipIdx, h.len], ?_⟩
    intro x t hx
    have hxl : x < lim.length := by
      by_contra hh; rw [List.getElem?_eq_none (by omega)] at hx; cases hx
    have hxm : x < m.length := by rw [← List.length_zipIdx (l := m), hF.length_eq]; exact hxl
    have := hF.get (by simpa using hxm) hxl
    simp only [List.get_eq_getElem, List.getElem_zipIdx, Nat.zero_add] at this
    rw [List.getElem?_eq_getElem hxl] at hx; cases hx
    exact this
  · rintro ⟨y, x⟩ hp
    rw [List.mk_mem_zipIdx_iff_getElem?] at hp
    have hxm : x < m.length := by
      by_contra hh; rw [List.getElem?_eq_none (by omega)] at hp; cases hp
    have hxn : x < nodes.length := by rw [← h.len]; exact hxm
    refine (limitLoop_ok h N hnd hN _ x rfl hxn).2 fuel y (le_trans ?_ hf) hp
    exact List.single_le_sum (by simp) _ (List.mem_map_of_mem (List.mem_range.2 hxn))

end Gtda.Mapper
