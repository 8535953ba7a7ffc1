import Verif.Model.Cover
import Mathlib.Data.List.Nodup
import Mathlib.Tactic.Linarith

set_option autoImplicit false

/-!
# Helper lemmas: cleaning of masks, cartesian products
-/

namespace Gtda.Mapper
open Gtda.Py

/-- First occurrences, in order. -/
def firstOcc {α : Type} [DecidableEq α] : List α → List α
  | [] => []
  | a :: t => a :: (firstOcc t).filter (· ≠ a)

theorem mem_firstOcc {α : Type} [DecidableEq α] (l : List α) (x : α) : x ∈ firstOcc l ↔ x ∈ l := by
  induction l with
  | nil => simp [firstOcc]
  | cons a t ih =>
    simp only [firstOcc, List.mem_cons, List.mem_filter, ih, decide_eq_true_eq]
    constructor
    · rintro (h | h); exact Or.inl h; exact Or.inr h.1
    · rintro (h | h)
      · exact Or.inl h
      · by_cases hx : x = a
        · exact Or.inl hx
        · exact Or.inr ⟨h, hx⟩

theorem firstOcc_sorted {α : Type} [DecidableEq α] [BEq α] [LawfulBEq α] (l : List α) :
    (firstOcc l).Pairwise (fun a b => l.idxOf a < l.idxOf b) := by
  induction l with
  | nil => simp [firstOcc]
  | cons a t ih =>
    rw [firstOcc, List.pairwise_cons]
    constructor
    · intro b hb
      rw [List.mem_filter] at hb
      have hb2 : b ≠ a := by simpa using hb.2
      rw [List.idxOf_cons_self, List.idxOf_cons_ne _ (Ne.symm hb2)]
      omega
    · have := ih.filter (· ≠ a)
      apply List.Pairwise.imp_of_mem _ this
      intro x y hx hy hxy
      have hx2 : x ≠ a := by simpa using (List.mem_filter.1 hx).2
      have hy2 : y ≠ a := by simpa using (List.mem_filter.1 hy).2
      rw [List.idxOf_cons_ne _ (Ne.symm hx2), List.idxOf_cons_ne _ (Ne.symm hy2)]
      omega

theorem eq_of_sorted_key {α : Type} (key : α → Nat) {l l' : List α} (h : l.Pairwise (fun a b => key a < key b))
    (h' : l'.Pairwise (fun a b => key a < key b)) (hm : ∀ x, x ∈ l ↔ x ∈ l') : l = l' := by
  have hn : l.Nodup := h.imp (by intro a b hab heq; rw [heq] at hab; omega)
  have hn' : l'.Nodup := h'.imp (by intro a b hab heq; rw [heq] at hab; omega)
  exact List.Perm.eq_of_pairwise (fun a b _ _ h1 h2 => absurd h1 (by omega)) h h' ((List.perm_ext_iff_of_nodup hn hn').2 hm)

theorem mem_uniqueColumns (cols : List (List Bool)) (p : List Bool × Nat) :
    p ∈ uniqueColumns cols ↔ p.1 ∈ cols ∧ p.2 = cols.idxOf p.1 := by
  unfold uniqueColumns
  rw [List.mem_insertionSort, List.mem_map]
  constructor
  · rintro ⟨c, hc, rfl⟩; exact ⟨List.mem_dedup.1 hc, rfl⟩
  · rintro ⟨h1, h2⟩; exact ⟨p.1, List.mem_dedup.2 h1, by rw [← h2]⟩

/-- Cleaning keeps the first occurrence of every non-empty column, in order. -/
theorem cleanMasks_eq (cols : List (List Bool)) : cleanMasks cols = firstOcc (cols.filter fun c => c.any id) := by
  unfold cleanMasks
  simp only
  generalize cols.filter (fun c => c.any id) = L
  apply eq_of_sorted_key (fun c => L.idxOf c) _ (firstOcc_sorted L)
  · intro x
    rw [mem_firstOcc, List.mem_map]
    constructor
    · rintro ⟨p, hp, rfl⟩
      rw [List.mem_insertionSort] at hp
      exact ((mem_uniqueColumns L p).1 hp).1
    · intro h
      exact ⟨(x, L.idxOf x), by rw [List.mem_insertionSort]; exact (mem_uniqueColumns L _).2 ⟨h, rfl⟩, rfl⟩
  · rw [List.pairwise_map]
    have h1 : ((uniqueColumns L).insertionSort fun p q => p.2 ≤ q.2).Pairwise (fun p q => p.2 ≤ q.2) := by
      have : Std.Total (fun p q : List Bool × Nat => p.2 ≤ q.2) := ⟨fun a b => Nat.le_total a.2 b.2⟩
      have : IsTrans (List Bool × Nat) (fun p q => p.2 ≤ q.2) := ⟨fun a b c h1 h2 => Nat.le_trans h1 h2⟩
      exact List.pairwise_insertionSort _ _
    have h2 : ((uniqueColumns L).insertionSort fun p q => p.2 ≤ q.2).Nodup := by
      rw [(List.perm_insertionSort _ _).nodup_iff]
      unfold uniqueColumns
      rw [(List.perm_insertionSort _ _).nodup_iff]
      exact (List.nodup_dedup L).map (fun a b hab => by simpa using congrArg Prod.fst hab)
    apply List.Pairwise.imp_of_mem _ (h1.and h2)
    intro p q hp hq hpq
    rw [List.mem_insertionSort, mem_uniqueColumns] at hp hq
    rw [← hp.2, ← hq.2]
    rcases Nat.lt_or_eq_of_le hpq.1 with h | h
    · exact h
    · exfalso
      apply hpq.2
      have : p.1 = q.1 := by
        have e := h
        rw [hp.2, hq.2] at e
        have i1 := List.idxOf_lt_length_iff.2 hp.1
        have i2 := List.idxOf_lt_length_iff.2 hq.1
        have g1 := List.getElem_idxOf i1
        have g2 := List.getElem_idxOf i2
        rw [← g1, ← g2]; congr 1
      exact Prod.ext this h

theorem firstOcc_cons_cons {α : Type} [DecidableEq α] (a : α) (t : List α) : firstOcc (a :: a :: t) = firstOcc (a :: t) := by
  simp [firstOcc, List.filter_filter]

theorem firstOcc_replicate {α : Type} [DecidableEq α] (a : α) (p : Nat) (t : List α) :
    firstOcc (List.replicate p a ++ a :: t) = firstOcc (a :: t) := by
  induction p with
  | zero => rfl
  | succ p ih =>
    rw [List.replicate_succ, List.cons_append]
    cases p with
    | zero => simpa using firstOcc_cons_cons a t
    | succ p =>
      rw [List.replicate_succ, List.cons_append] at ih ⊢
      rw [firstOcc_cons_cons, ih]

theorem firstOcc_append {α : Type} [DecidableEq α] (xs ys : List α) :
    firstOcc (xs ++ ys) = firstOcc xs ++ (firstOcc ys).filter (· ∉ xs) := by
  induction xs with
  | nil => simp [firstOcc]
  | cons a t ih =>
    simp only [List.cons_append, firstOcc, ih, List.filter_append, List.filter_filter, List.cons.injEq, true_and, List.append_cancel_left_eq]
    congr 1
    funext x
    simp

theorem firstOcc_append_congr {α : Type} [DecidableEq α] {xs xs' ys ys' : List α} (h : firstOcc xs = firstOcc xs') (h' : firstOcc ys = firstOcc ys') :
    firstOcc (xs ++ ys) = firstOcc (xs' ++ ys') := by
  rw [firstOcc_append, firstOcc_append, h, h']
  congr 1
  apply List.filter_congr
  intro x _
  have : x ∈ xs ↔ x ∈ xs' := by rw [← mem_firstOcc, h, mem_firstOcc]
  simp [this]

theorem firstOcc_append_subset {α : Type} [DecidableEq α] {xs ys : List α} (h : ∀ y ∈ ys, y ∈ xs) : firstOcc (xs ++ ys) = firstOcc xs := by
  rw [firstOcc_append]
  have : (firstOcc ys).filter (· ∉ xs) = [] := by
    rw [List.filter_eq_nil_iff]
    intro y hy
    simp [h y ((mem_firstOcc ys y).1 hy)]
  rw [this, List.append_nil]

theorem firstOcc_flatMap_inner {α β : Type} [DecidableEq β] (l : List α) (g h : α → List β) (hgh : ∀ a ∈ l, firstOcc (g a) = firstOcc (h a)) :
    firstOcc (l.flatMap g) = firstOcc (l.flatMap h) := by
  induction l with
  | nil => rfl
  | cons a t ih =>
    rw [List.flatMap_cons, List.flatMap_cons]
    exact firstOcc_append_congr (hgh a (by simp)) (ih fun b hb => hgh b (by simp [hb]))

theorem firstOcc_flatMap_filter {α β : Type} [DecidableEq α] [DecidableEq β] (S : List α) (g : α → List β) (a : α) (P : List β) (hP : ∀ y ∈ g a, y ∈ P) :
    firstOcc (P ++ (S.filter (· ≠ a)).flatMap g) = firstOcc (P ++ S.flatMap g) := by
  induction S generalizing P with
  | nil => rfl
  | cons b S ih =>
    by_cases hb : b = a
    · subst hb
      rw [List.filter_cons_of_neg (by simp), ih P hP, List.flatMap_cons, ← List.append_assoc]
      exact (firstOcc_append_congr (firstOcc_append_subset hP) rfl).symm
    · rw [List.filter_cons_of_pos (by simpa using hb), List.flatMap_cons, List.flatMap_cons, ← List.append_assoc, ← List.append_assoc]
      exact ih _ fun y hy => by simp [hP y hy]

theorem firstOcc_flatMap_outer {α β : Type} [DecidableEq α] [DecidableEq β] (l : List α) (g : α → List β) :
    firstOcc ((firstOcc l).flatMap g) = firstOcc (l.flatMap g) := by
  induction l with
  | nil => rfl
  | cons a t ih =>
    rw [firstOcc, List.flatMap_cons, List.flatMap_cons, firstOcc_flatMap_filter _ _ _ _ (fun y hy => hy)]
    exact firstOcc_append_congr rfl ih

theorem mem_cartesian {α : Type} (ls : List (List α)) (t : List α) : t ∈ cartesian ls ↔ List.Forall₂ (fun a l => a ∈ l) t ls := by
  induction ls generalizing t with
  | nil =>
    simp only [cartesian, List.mem_singleton]
    constructor
    · rintro rfl; exact .nil
    · intro h; cases h; rfl
  | cons l ls ih =>
    simp only [cartesian, List.mem_flatMap, List.mem_map]
    constructor
    · rintro ⟨a, ha, t', ht', rfl⟩
      exact .cons ha ((ih t').1 ht')
    · intro h
      cases h with
      | cons h1 h2 => exact ⟨_, h1, _, (ih _).2 h2, rfl⟩

theorem andColumns_get (n : Nat) (t : List (List Bool)) (h : ∀ c ∈ t, c.length = n) :
    (andColumns n t).length = n ∧ ∀ i, i < n → ((andColumns n t)[i]? = some true ↔ ∀ c ∈ t, c[i]? = some true) := by
  unfold andColumns
  have key : ∀ (t : List (List Bool)) (acc : List Bool), acc.length = n → (∀ c ∈ t, c.length = n) →
      (t.foldl (fun acc c => List.zipWith (· && ·) acc c) acc).length = n ∧
      ∀ i, i < n → ((t.foldl (fun acc c => List.zipWith (· && ·) acc c) acc)[i]? = some true ↔
        acc[i]? = some true ∧ ∀ c ∈ t, c[i]? = some true) := by
    intro t
    induction t with
    | nil => intro acc ha _; exact ⟨ha, fun i _ => by simp⟩
    | cons c t ih =>
      intro acc ha hc
      have hcl := hc c (by simp)
      have hlen : (List.zipWith (· && ·) acc c).length = n := by simp [ha, hcl]
      obtain ⟨h1, h2⟩ := ih _ hlen (fun d hd => hc d (by simp [hd]))
      refine ⟨h1, fun i hi => ?_⟩
      rw [List.foldl_cons, h2 i hi]
      have h3 : (List.zipWith (· && ·) acc c)[i]? = some true ↔ acc[i]? = some true ∧ c[i]? = some true := by
        rw [List.getElem?_zipWith, List.getElem?_eq_getElem (by omega), List.getElem?_eq_getElem (by omega)]
        simp
      rw [h3]
      simp [and_assoc]
  obtain ⟨h1, h2⟩ := key t (List.replicate n true) (by simp) h
  refine ⟨h1, fun i hi => ?_⟩
  rw [h2 i hi]; simp [hi]

theorem bool_ext {n : Nat} {l l' : List Bool} (h : l.length = n) (h' : l'.length = n)
    (hh : ∀ i, i < n → (l[i]? = some true ↔ l'[i]? = some true)) : l = l' := by
  apply List.ext_getElem (by omega)
  intro i h1 h2
  have := hh i (by omega)
  rw [List.getElem?_eq_getElem h1, List.getElem?_eq_getElem h2, Option.some.injEq, Option.some.injEq] at this
  cases h3 : l[i] <;> cases h4 : l'[i] <;> simp_all

theorem andColumns_cons (n : Nat) (a : List Bool) (t : List (List Bool)) (ha : a.length = n) (h : ∀ c ∈ t, c.length = n) :
    andColumns n (a :: t) = List.zipWith (· && ·) a (andColumns n t) := by
  obtain ⟨h1, h2⟩ := andColumns_get n (a :: t) (by simpa [ha] using h)
  obtain ⟨h3, h4⟩ := andColumns_get n t h
  refine bool_ext h1 (by simp [ha, h3]) ?_
  intro i hi
  have hz : (List.zipWith (· && ·) a (andColumns n t))[i]? = some true ↔ a[i]? = some true ∧ (andColumns n t)[i]? = some true := by
    rw [List.getElem?_zipWith, List.getElem?_eq_getElem (by omega), List.getElem?_eq_getElem (by omega)]
    simp
  rw [h2 i hi, hz, h4 i hi]
  simp

theorem length_of_mem_cartesian {n : Nat} {ls : List (List (List Bool))} (h : ∀ l ∈ ls, ∀ c ∈ l, c.length = n)
    {t : List (List Bool)} (ht : t ∈ cartesian ls) : ∀ c ∈ t, c.length = n := by
  rw [mem_cartesian] at ht
  induction ht with
  | nil => simp
  | cons h1 _ ih =>
    intro c hc
    rcases List.mem_cons.1 hc with rfl | hc
    · exact h _ (by simp) _ h1
    · exact ih (fun l hl => h l (by simp [hl])) c hc

theorem combine_cons (n : Nat) (l : List (List Bool)) (ls : List (List (List Bool))) (hl : ∀ c ∈ l, c.length = n)
    (h : ∀ l ∈ ls, ∀ c ∈ l, c.length = n) :
    (cartesian (l :: ls)).map (andColumns n) = l.flatMap fun a => ((cartesian ls).map (andColumns n)).map (List.zipWith (· && ·) a) := by
  rw [cartesian, List.map_flatMap]
  have : ∀ (m : List (List Bool)), (∀ c ∈ m, c ∈ l) →
      (m.flatMap fun a => ((cartesian ls).map fun t => a :: t).map (andColumns n)) =
      m.flatMap fun a => ((cartesian ls).map (andColumns n)).map (List.zipWith (· && ·) a) := by
    intro m
    induction m with
    | nil => intro _; rfl
    | cons a m ih =>
      intro hm
      rw [List.flatMap_cons, List.flatMap_cons, ih fun c hc => hm c (by simp [hc])]
      congr 1
      rw [List.map_map, List.map_map]
      apply List.map_congr_left
      intro t ht
      exact andColumns_cons n a t (hl a (hm a (by simp))) (length_of_mem_cartesian h ht)
  exact this l fun _ h => h

theorem any_zipWith_and {a c : List Bool} (h : (List.zipWith (· && ·) a c).any id = true) : a.any id = true ∧ c.any id = true := by
  induction a generalizing c with
  | nil => simp at h
  | cons x a ih =>
    cases c with
    | nil => simp at h
    | cons y c =>
      simp only [List.zipWith_cons_cons, List.any_cons, id, Bool.or_eq_true, Bool.and_eq_true] at h ⊢
      rcases h with h | h
      · exact ⟨Or.inl h.1, Or.inl h.2⟩
      · exact ⟨Or.inr (ih h).1, Or.inr (ih h).2⟩

/-- Cleaning a product of masks depends only on the cleaned factors. -/
theorem clean_product_congr {l l' D D' : List (List Bool)} (hl : cleanMasks l = cleanMasks l') (hD : cleanMasks D = cleanMasks D') :
    cleanMasks (l.flatMap fun a => D.map (List.zipWith (· && ·) a)) = cleanMasks (l'.flatMap fun a => D'.map (List.zipWith (· && ·) a)) := by
  have key : ∀ l D : List (List Bool), cleanMasks (l.flatMap fun a => D.map (List.zipWith (· && ·) a)) =
      firstOcc ((cleanMasks l).flatMap fun a => (cleanMasks D).flatMap fun c => [List.zipWith (· && ·) a c].filter fun c => c.any id) := by
    intro l D
    have h1 : (l.flatMap fun a => D.map (List.zipWith (· && ·) a)).filter (fun c => c.any id) =
        (l.filter fun c => c.any id).flatMap fun a => (D.filter fun c => c.any id).flatMap fun c => [List.zipWith (· && ·) a c].filter fun c => c.any id := by
      induction l with
      | nil => rfl
      | cons a l ih =>
        have h2 : ∀ D : List (List Bool), (D.map (List.zipWith (· && ·) a)).filter (fun c => c.any id) =
            (D.filter fun c => c.any id).flatMap fun c => [List.zipWith (· && ·) a c].filter fun c => c.any id := by
          intro D
          induction D with
          | nil => rfl
          | cons c D ihD =>
            rw [List.map_cons, List.filter_cons, List.filter_cons, ihD]
            by_cases hc : (List.zipWith (· && ·) a c).any id = true
            · rw [if_pos hc, if_pos (any_zipWith_and hc).2, List.flatMap_cons, List.filter_cons_of_pos (p := fun c : List Bool => c.any id) hc]; rfl
            · rw [if_neg hc]
              split
              · rw [List.flatMap_cons, List.filter_cons_of_neg (p := fun c : List Bool => c.any id) hc]; rfl
              · rfl
        rw [List.flatMap_cons, List.filter_append, ih, h2, List.filter_cons]
        by_cases ha : a.any id = true
        · rw [if_pos ha, List.flatMap_cons]
        · rw [if_neg ha]
          have : ((D.filter fun c => c.any id).flatMap fun c => [List.zipWith (· && ·) a c].filter fun c => c.any id) = [] := by
            rw [List.flatMap_eq_nil_iff]
            intro c _
            rw [List.filter_cons_of_neg (p := fun c : List Bool => c.any id) (fun h => ha (any_zipWith_and h).1)]; rfl
          rw [this, List.nil_append]
    rw [cleanMasks_eq, h1, ← firstOcc_flatMap_outer, cleanMasks_eq, cleanMasks_eq]
    apply firstOcc_flatMap_inner
    intro a _
    rw [firstOcc_flatMap_outer]
  rw [key, key, hl, hD]

/-- The combined cover depends only on the cleaned one-dimensional covers. -/
theorem combineCovers_congr {n : Nat} {ls ls' : List (List (List Bool))} (hls : List.Forall₂ (fun l l' => cleanMasks l = cleanMasks l') ls ls')
    (h : ∀ l ∈ ls, ∀ c ∈ l, c.length = n) (h' : ∀ l ∈ ls', ∀ c ∈ l, c.length = n) : combineCovers n ls = combineCovers n ls' := by
  unfold combineCovers
  induction hls with
  | nil => rfl
  | cons h1 _ ih =>
    rw [combine_cons n _ _ (h _ (by simp)) fun l hl => h l (by simp [hl]), combine_cons n _ _ (h' _ (by simp)) fun l hl => h' l (by simp [hl])]
    exact clean_product_congr h1 (ih (fun l hl => h l (by simp [hl])) fun l hl => h' l (by simp [hl]))

end Gtda.Mapper
