import Verif.Spec.Diagrams
import Verif.Lemmas.List
import Verif.Lemmas.TimeSeries

set_option autoImplicit false
set_option linter.unusedSectionVars false

/-! Lemmas about `_subdiagrams`, `_multirange` and `_filter`. -/

namespace Gtda.Diagrams
open Gtda.Py

/-! ### reshape -/

theorem chunks_flatten {α : Type} (L : List (List α)) (m : Nat) (h : ∀ l ∈ L, l.length = m) :
    ((List.range L.length).map fun i => (L.flatten.drop (i * m)).take m) = L := by
  induction L with
  | nil => rfl
  | cons a t ih =>
    have ha : a.length = m := h a (by simp)
    have ht : ∀ l ∈ t, l.length = m := fun l hl => h l (by simp [hl])
    rw [List.length_cons, List.range_succ_eq_map, List.map_cons, List.map_map]
    congr 1
    · simp [← ha]
    · conv_rhs => rw [← ih ht]
      apply List.map_congr_left
      intro i _
      simp only [Function.comp, List.flatten_cons]
      rw [show (i + 1) * m = a.length + i * m by rw [ha]; ring]
      rw [List.drop_append, List.drop_of_length_le (by omega)]
      simp

theorem reshape2_flatten {α : Type} (L : List (List α)) (m : Nat) (h : ∀ l ∈ L, l.length = m) :
    reshape2 L.length m L.flatten = .ok L := by
  unfold reshape2
  rw [if_pos (Gtda.length_flatten_uniform L m h), chunks_flatten L m h]

section
variable {K Q : Type} [DecidableEq Q]

theorem flatten_filter (X : List (List (Pt K Q))) (q : Q) :
    X.flatten.filter (fun p => decide (p.q = q)) = (X.map fun D => pointsIn D q).flatten := by
  rw [List.filter_flatten]; rfl

theorem subdiagramsSingle_eq (X : List (List (Pt K Q))) (q : Q) (hX : X ≠ []) (h : EqualCounts X q) :
    subdiagramsSingle X q = .ok (X.map fun D => pointsIn D q) := by
  cases X with
  | nil => exact absurd rfl hX
  | cons X0 t =>
    simp only [subdiagramsSingle]
    rw [flatten_filter]
    have := reshape2_flatten ((X0 :: t).map fun D => pointsIn D q) (pointsIn X0 q).length (by
      intro l hl
      rw [List.mem_map] at hl
      obtain ⟨D, hD, rfl⟩ := hl
      exact h D hD X0 (by simp))
    rw [List.length_map] at this
    exact this

theorem subdiagramsSingle_length (X R : List (List (Pt K Q))) (q : Q) (h : subdiagramsSingle X q = .ok R) :
    R.length = X.length := by
  cases X with
  | nil => simp [subdiagramsSingle] at h
  | cons X0 t =>
    simp only [subdiagramsSingle, reshape2] at h
    split at h
    · simp only [Except.ok.injEq] at h
      rw [← h]; simp
    · simp at h

theorem concat_map {α β : Type} (X : List α) (F : β → α → List (Pt K Q)) (qs : List β) :
    (qs.map fun q => X.map (F q)).foldr (List.zipWith (· ++ ·)) (List.replicate X.length []) =
      X.map fun D => qs.flatMap fun q => F q D := by
  induction qs with
  | nil =>
    simp only [List.map_nil, List.foldr_nil, List.flatMap_nil]
    rw [List.map_const']
  | cons q t ih =>
    rw [List.map_cons, List.foldr_cons, ih]
    rw [List.zipWith_map]
    rw [List.zipWith_self]
    rfl

theorem subdiagrams_eq (X : List (List (Pt K Q))) (dims : List Q) (hX : X ≠ []) (hd : dims ≠ [])
    (h : ∀ q ∈ dims, EqualCounts X q) :
    subdiagrams X dims = .ok (X.map fun D => dims.flatMap fun q => pointsIn D q) := by
  obtain ⟨X0, Xt, rfl⟩ := List.exists_cons_of_ne_nil hX
  obtain ⟨q, t, rfl⟩ := List.exists_cons_of_ne_nil hd
  cases t with
  | nil =>
    simp only [subdiagrams]
    rw [subdiagramsSingle_eq _ _ hX (h q (by simp))]
    simp
  | cons q' t =>
    simp only [subdiagrams]
    rw [mapM_ok (g := fun q => (X0 :: Xt).map fun D => pointsIn D q) (fun x hx => subdiagramsSingle_eq _ _ hX (h x hx))]
    rw [ok_bind]
    simp only [concatAxis1, List.map_cons]
    congr 1
    have := concat_map (X0 :: Xt) (fun q (D : List (Pt K Q)) => pointsIn D q) (q :: q' :: t)
    simpa using this

end

section
variable {K Q : Type} [DecidableEq Q]

theorem pointsIn_flatMap (l : List Q) (F : Q → List (Pt K Q)) (hF : ∀ q ∈ l, ∀ p ∈ F q, p.q = q) (hl : l.Nodup) (q : Q) :
    pointsIn (l.flatMap F) q = if q ∈ l then F q else [] := by
  induction l with
  | nil => rfl
  | cons a t ih =>
    have iht := ih (fun q hq => hF q (by simp [hq])) (List.nodup_cons.mp hl).2
    unfold pointsIn at iht ⊢
    rw [List.flatMap_cons, List.filter_append, iht]
    have ha := hF a (by simp)
    by_cases hqa : q = a
    · subst hqa
      rw [if_pos (List.mem_cons_self : q ∈ q :: t), if_neg (List.nodup_cons.mp hl).1, List.append_nil]
      exact List.filter_eq_self.mpr (fun p hp => by simpa using ha p hp)
    · have : (F a).filter (fun p => decide (p.q = q)) = [] :=
        List.filter_eq_nil_iff.mpr (fun p hp => by rw [ha p hp]; simpa using fun e => hqa e.symm)
      rw [this, List.nil_append]
      simp [hqa]

end

/-! ### cumsum and multirange -/

/-- Cumulative sums starting from `s`. -/
def csum (s : Int) (l : List Int) : List Int := (l.scanl (· + ·) s).tail

@[simp] theorem csum_nil (s : Int) : csum s [] = [] := rfl

@[simp] theorem csum_cons (s a : Int) (l : List Int) : csum s (a :: l) = (s + a) :: csum (s + a) l := by
  unfold csum
  rw [List.scanl_cons, List.tail_cons]
  cases l <;> simp [List.scanl_cons, List.scanl_nil]

theorem cumsum_eq (l : List Int) : cumsum l = csum 0 l := rfl

theorem csum_ones (s : Int) (n : Nat) (l : List Int) :
    csum s (List.replicate n 1 ++ l) = ((List.range n).map fun (i : Nat) => s + 1 + (i : Int)) ++ csum (s + n) l := by
  induction n generalizing s with
  | zero => simp
  | succ n ih =>
    rw [List.replicate_succ, List.cons_append, csum_cons, ih, List.range_succ_eq_map]
    simp only [List.map_cons, List.map_map, List.cons_append]
    congr 1
    · simp
    · congr 1
      · apply List.map_congr_left
        intro i _
        simp only [Function.comp]
        push_cast
        ring
      · congr 1
        push_cast
        ring

/-- The increments of `_multirange` after the first count `p`. -/
def incrBlocks (p : Nat) : List Nat → List Int
  | [] => []
  | c :: t => (1 - (p : Int)) :: (List.replicate (c - 1) 1 ++ incrBlocks c t)

theorem csum_blocks (s : Int) (p : Nat) (l : List Nat) (hl : ∀ c ∈ l, 0 < c) (hs : s = (p : Int) - 1) :
    csum s (incrBlocks p l) = l.flatMap fun c => (List.range c).map fun (i : Nat) => (i : Int) := by
  induction l generalizing s p with
  | nil => rfl
  | cons c t ih =>
    have hc : 0 < c := hl c (by simp)
    rw [incrBlocks, csum_cons, csum_ones, List.flatMap_cons]
    rw [show s + (1 - (p : Int)) = 0 by rw [hs]; ring]
    rw [ih _ c (fun x hx => hl x (by simp [hx])) (by omega)]
    rw [← List.cons_append]
    congr 1
    obtain ⟨c', rfl⟩ : ∃ c', c = c' + 1 := ⟨c - 1, by omega⟩
    rw [List.range_succ_eq_map, List.map_cons, List.map_map]
    congr 1
    rw [Nat.add_sub_cancel]
    apply List.map_congr_left
    intro i _
    simp [Function.comp]
    ring

theorem setMany_cons {α : Type} (a : List α) (i : Nat) (v : α) (l : List (Nat × α)) :
    setMany a ((i, v) :: l) = setMany (a.set i v) l := rfl

/-- Cumulative sums of natural numbers starting from `s`. -/
def ncsum (s : Nat) : List Nat → List Nat
  | [] => []
  | c :: t => (s + c) :: ncsum (s + c) t

theorem csum_cast (s : Nat) (l : List Nat) :
    (csum (s : Int) (l.map fun (c : Nat) => (c : Int))).map Int.toNat = ncsum s l := by
  induction l generalizing s with
  | nil => rfl
  | cons c t ih =>
    rw [List.map_cons, csum_cons, List.map_cons, ncsum, ← ih (s + c)]
    push_cast
    simp
    omega

theorem ncsum_last (s : Nat) (l : List Nat) (h : l ≠ []) : (ncsum s l).getLastD 0 = s + l.sum := by
  induction l generalizing s with
  | nil => exact absurd rfl h
  | cons c t ih =>
    cases t with
    | nil => simp [ncsum]
    | cons c' t' =>
      have := ih (s + c) (by simp)
      rw [List.sum_cons, ← Nat.add_assoc, ← this]
      simp [ncsum, List.getLastD]

theorem setMany_blocks (A : List Int) (hd : Int) (c : Nat) (t : List Nat) (hc : 0 < c) (ht : ∀ c ∈ t, 0 < c) :
    setMany (A ++ hd :: List.replicate (c - 1 + t.sum) 1)
      ((ncsum A.length (c :: t)).dropLast.zip ((c :: t).dropLast.map fun (c : Nat) => 1 - (c : Int))) =
      A ++ hd :: (List.replicate (c - 1) 1 ++ incrBlocks c t) := by
  induction t generalizing A hd c with
  | nil => simp [ncsum, setMany, incrBlocks]
  | cons c' t ih =>
    have hc' : 0 < c' := ht c' (by simp)
    have h1 : (ncsum A.length (c :: c' :: t)).dropLast = (A.length + c) :: (ncsum (A.length + c) (c' :: t)).dropLast := by
      simp [ncsum]
    have h2 : ((c :: c' :: t).dropLast.map fun (c : Nat) => 1 - (c : Int)) =
        (1 - (c : Int)) :: ((c' :: t).dropLast.map fun (c : Nat) => 1 - (c : Int)) := by
      simp
    rw [h1, h2, List.zip_cons_cons, setMany_cons]
    have h3 : (A ++ hd :: List.replicate (c - 1 + (c' :: t).sum) (1 : Int)).set (A.length + c) (1 - (c : Int)) =
        (A ++ hd :: List.replicate (c - 1) 1) ++ (1 - (c : Int)) :: List.replicate (c' - 1 + t.sum) 1 := by
      rw [List.set_append_right _ _ (by omega)]
      obtain ⟨k, rfl⟩ : ∃ k, c = k + 1 := ⟨c - 1, by omega⟩
      rw [show A.length + (k + 1) - A.length = k + 1 by omega, List.set_cons_succ, Nat.add_sub_cancel]
      rw [List.append_assoc, List.cons_append]
      congr 2
      rw [List.replicate_add, List.set_append_right _ _ (by simp), List.length_replicate, Nat.sub_self]
      congr 1
      rw [show (c' :: t).sum = (c' - 1 + t.sum) + 1 by rw [List.sum_cons]; omega, List.replicate_succ, List.set_cons_zero]
    rw [h3]
    have h4 := ih (A ++ hd :: List.replicate (c - 1) 1) (1 - (c : Int)) c' hc' (fun x hx => ht x (by simp [hx]))
    rw [show (A ++ hd :: List.replicate (c - 1) (1 : Int)).length = A.length + c by simp; omega] at h4
    rw [h4, incrBlocks]
    simp

theorem multirange_eq (counts : List Nat) (hne : counts ≠ []) (hpos : ∀ c ∈ counts, 0 < c) :
    multirange counts = counts.flatMap fun c => (List.range c).map fun (i : Nat) => (i : Int) := by
  obtain ⟨c, t, rfl⟩ := List.exists_cons_of_ne_nil hne
  have hc : 0 < c := hpos c (by simp)
  have ht : ∀ c ∈ t, 0 < c := fun x hx => hpos x (by simp [hx])
  unfold multirange
  simp only [cumsum_eq]
  have h0 := csum_cast 0 (c :: t)
  rw [Nat.cast_zero] at h0
  rw [h0, ncsum_last _ _ hne]
  have h1 : (List.replicate (0 + (c :: t).sum) (1 : Int)).set 0 0 = 0 :: List.replicate (c - 1 + t.sum) 1 := by
    rw [show 0 + (c :: t).sum = (c - 1 + t.sum) + 1 by rw [List.sum_cons]; omega, List.replicate_succ, List.set_cons_zero]
  rw [h1]
  have h2 := setMany_blocks [] 0 c t hc ht
  rw [List.nil_append, List.nil_append, List.length_nil] at h2
  rw [h2, csum_cons, csum_ones, csum_blocks _ c t ht (by push_cast; omega), List.flatMap_cons, ← List.cons_append]
  congr 1
  obtain ⟨c', rfl⟩ : ∃ c', c = c' + 1 := ⟨c - 1, by omega⟩
  rw [List.range_succ_eq_map, List.map_cons, List.map_map, Nat.add_sub_cancel]
  congr 1
  apply List.map_congr_left
  intro i _
  simp [Function.comp]
  ring

/-! ### The fill loop of `_filter` -/

section
variable {K Q : Type} [DecidableEq Q]

/-- `selected`, numbering rows from `k`. -/
def selFrom (p : Pt K Q → Bool) (k : Nat) (X : List (List (Pt K Q))) : List (Nat × Pt K Q) :=
  (X.zipIdx k).flatMap fun D => (D.1.filter p).map fun x => (D.2, x)

theorem selected_eq (p : Pt K Q → Bool) (X : List (List (Pt K Q))) : selected p X = selFrom p 0 X := rfl

theorem selFrom_cons (p : Pt K Q → Bool) (k : Nat) (D : List (Pt K Q)) (X : List (List (Pt K Q))) :
    selFrom p k (D :: X) = ((D.filter p).map fun x => (k, x)) ++ selFrom p (k + 1) X := by
  simp [selFrom, List.zipIdx_cons]

theorem selFrom_snd (p : Pt K Q → Bool) (k : Nat) (X : List (List (Pt K Q))) :
    (selFrom p k X).map Prod.snd = X.flatMap fun D => D.filter p := by
  induction X generalizing k with
  | nil => rfl
  | cons D t ih => rw [selFrom_cons, List.map_append, ih, List.flatMap_cons, List.map_map]; simp [Function.comp_def]

theorem selFrom_fst_cons (p : Pt K Q → Bool) (k : Nat) (D : List (Pt K Q)) (X : List (List (Pt K Q))) :
    (selFrom p k (D :: X)).map Prod.fst = List.replicate (D.filter p).length k ++ (selFrom p (k + 1) X).map Prod.fst := by
  rw [selFrom_cons, List.map_append, List.map_map]
  simp [Function.comp_def]

theorem selFrom_fst_ge (p : Pt K Q → Bool) (k : Nat) (X : List (List (Pt K Q))) (r : Nat)
    (h : r ∈ (selFrom p k X).map Prod.fst) : k ≤ r := by
  induction X generalizing k with
  | nil => simp [selFrom] at h
  | cons D t ih =>
    rw [selFrom_fst_cons, List.mem_append] at h
    rcases h with h | h
    · rw [List.mem_replicate] at h; omega
    · have := ih _ h; omega

theorem dedup_replicate_append (c k : Nat) (R : List Nat) (h : k ∉ R) :
    (List.replicate c k ++ R).dedup = if c = 0 then R.dedup else k :: R.dedup := by
  induction c with
  | zero => simp
  | succ c ih =>
    rw [List.replicate_succ, List.cons_append, if_neg (by omega)]
    by_cases hc : c = 0
    · subst hc
      rw [List.replicate_zero, List.nil_append, List.dedup_cons_of_notMem h]
    · rw [List.dedup_cons_of_mem (by simp [hc]), ih, if_neg hc]

theorem runCounts_selFrom (p : Pt K Q → Bool) (k : Nat) (X : List (List (Pt K Q))) :
    runCounts ((selFrom p k X).map Prod.fst) = (X.map fun D => (D.filter p).length).filter (fun c => decide (0 < c)) := by
  induction X generalizing k with
  | nil => rfl
  | cons D t ih =>
    have hk : k ∉ (selFrom p (k + 1) t).map Prod.fst := fun h => by
      have := selFrom_fst_ge p (k + 1) t k h; omega
    unfold runCounts at ih ⊢
    rw [selFrom_fst_cons, dedup_replicate_append _ _ _ hk]
    have hrest : ∀ r ∈ ((selFrom p (k + 1) t).map Prod.fst).dedup,
        (List.replicate (D.filter p).length k ++ (selFrom p (k + 1) t).map Prod.fst).count r =
          ((selFrom p (k + 1) t).map Prod.fst).count r := by
      intro r hr
      have hne : r ≠ k := by
        rintro rfl
        exact hk (List.mem_dedup.mp hr)
      rw [List.count_append, List.count_replicate]
      simp [Ne.symm hne]
    by_cases h0 : (D.filter p).length = 0
    · rw [if_pos h0, List.map_cons, List.filter_cons_of_neg (by simp [h0]), ← ih (k + 1)]
      exact List.map_congr_left hrest
    · rw [if_neg h0, List.map_cons, List.map_cons, List.filter_cons_of_pos (by simpa using Nat.pos_of_ne_zero h0), ← ih (k + 1),
        List.map_congr_left hrest]
      congr 1
      rw [List.count_append, List.count_replicate, List.count_eq_zero_of_not_mem hk]
      simp

theorem flatMap_filter_pos {β : Type} (l : List Nat) (f : Nat → List β) (h0 : f 0 = []) :
    (l.filter fun c => decide (0 < c)).flatMap f = l.flatMap f := by
  induction l with
  | nil => rfl
  | cons c t ih =>
    by_cases hc : 0 < c
    · rw [List.filter_cons_of_pos (by simpa using hc), List.flatMap_cons, List.flatMap_cons, ih]
    · rw [List.filter_cons_of_neg (by simpa using hc), List.flatMap_cons, ih, show c = 0 by omega, h0, List.nil_append]

/-- The assignments `Xdim[row, position] = triple` performed by the fill, row by row. -/
def writes (p : Pt K Q → Bool) (k : Nat) (X : List (List (Pt K Q))) : List ((Nat × Int) × Pt K Q) :=
  (X.zipIdx k).flatMap fun D => ((D.1.filter p).zipIdx).map fun x => ((D.2, (x.2 : Int)), x.1)

theorem writes_cons (p : Pt K Q → Bool) (k : Nat) (D : List (Pt K Q)) (X : List (List (Pt K Q))) :
    writes p k (D :: X) = (((D.filter p).zipIdx).map fun x => ((k, (x.2 : Int)), x.1)) ++ writes p (k + 1) X := by
  simp [writes, List.zipIdx_cons]

theorem zip_block (k : Nat) (ps : List (Pt K Q)) :
    ((List.replicate ps.length k).zip ((List.range ps.length).map fun (i : Nat) => (i : Int))).zip ps =
      (ps.zipIdx).map fun x => ((k, (x.2 : Int)), x.1) := by
  apply List.ext_getElem
  · simp
  · intro i h1 h2
    simp

theorem zip_writes (p : Pt K Q → Bool) (k : Nat) (X : List (List (Pt K Q))) :
    (((selFrom p k X).map Prod.fst).zip
      ((X.map fun D => (D.filter p).length).flatMap fun c => (List.range c).map fun (i : Nat) => (i : Int))).zip
        ((selFrom p k X).map Prod.snd) = writes p k X := by
  induction X generalizing k with
  | nil => rfl
  | cons D t ih =>
    rw [selFrom_fst_cons, selFrom_snd, List.flatMap_cons, List.map_cons, List.flatMap_cons, List.zip_append (by simp),
      List.zip_append (by simp), zip_block, ← selFrom_snd p (k + 1) t, ih, writes_cons]

theorem fill_block (k : Nat) (ps : List (Pt K Q)) (pre post : List (List (Pt K Q))) (B R : List (Pt K Q)) (hpre : pre.length = k)
    (hR : ps.length ≤ R.length) :
    ((ps.zipIdx B.length).map fun x => ((k, (x.2 : Int)), x.1)).foldl (fun a t => set2 a t.1.1 t.1.2.toNat t.2)
      (pre ++ (B ++ R) :: post) = pre ++ (B ++ ps ++ R.drop ps.length) :: post := by
  induction ps generalizing B R with
  | nil => simp
  | cons x t ih =>
    cases R with
    | nil => simp at hR
    | cons r R =>
      rw [List.zipIdx_cons, List.map_cons, List.foldl_cons]
      have h1 : set2 (pre ++ (B ++ r :: R) :: post) k B.length x = pre ++ ((B ++ [x]) ++ R) :: post := by
        unfold set2
        rw [List.modify_eq_set_getElem?]
        subst hpre
        simp [List.set_append_right]
      simp only [Int.toNat_natCast]
      rw [h1]
      have := ih (B ++ [x]) R (by simpa using hR)
      rw [List.length_append, List.length_singleton] at this
      rw [this]
      simp

theorem fill_rows (p : Pt K Q → Bool) (pad : Pt K Q) (M k : Nat) (X pre : List (List (Pt K Q))) (hpre : pre.length = k)
    (hM : ∀ D ∈ X, (D.filter p).length ≤ M) :
    (writes p k X).foldl (fun a t => set2 a t.1.1 t.1.2.toNat t.2) (pre ++ List.replicate X.length (List.replicate M pad)) =
      pre ++ X.map fun D => D.filter p ++ List.replicate (M - (D.filter p).length) pad := by
  induction X generalizing k pre with
  | nil => simp [writes]
  | cons D t ih =>
    rw [writes_cons, List.foldl_append, List.length_cons, List.replicate_succ]
    have h1 := fill_block k (D.filter p) pre (List.replicate t.length (List.replicate M pad)) [] (List.replicate M pad) hpre
      (by rw [List.length_replicate]; exact hM D (by simp))
    rw [List.nil_append, List.nil_append, List.length_nil] at h1
    rw [h1]
    have h2 := ih (k + 1) (pre ++ [D.filter p ++ (List.replicate M pad).drop (D.filter p).length]) (by simp [hpre])
      (fun D' hD' => hM D' (by simp [hD']))
    rw [List.append_assoc, List.singleton_append] at h2
    rw [h2]
    simp [List.drop_replicate]

theorem le_foldl_max (l : List Nat) (a : Nat) : a ≤ l.foldl max a ∧ ∀ x ∈ l, x ≤ l.foldl max a := by
  induction l generalizing a with
  | nil => simp
  | cons c t ih =>
    rw [List.foldl_cons]
    have := ih (max a c)
    refine ⟨by omega, ?_⟩
    intro x hx
    rcases List.mem_cons.mp hx with rfl | hx
    · omega
    · exact this.2 x hx

theorem foldl_max_mem (l : List Nat) (a : Nat) : l.foldl max a = a ∨ l.foldl max a ∈ l := by
  induction l generalizing a with
  | nil => simp
  | cons c t ih =>
    rw [List.foldl_cons]
    rcases ih (max a c) with h | h
    · rw [h]
      rcases max_choice a c with h' | h' <;> rw [h'] <;> simp
    · right; simp [h]

theorem foldl_max_filter_pos (l : List Nat) (a : Nat) :
    (l.filter fun c => decide (0 < c)).foldl max a = l.foldl max a := by
  induction l generalizing a with
  | nil => rfl
  | cons c t ih =>
    by_cases hc : 0 < c
    · rw [List.filter_cons_of_pos (by simpa using hc), List.foldl_cons, List.foldl_cons, ih]
    · rw [List.filter_cons_of_neg (by simpa using hc), List.foldl_cons, ih]
      congr 1; omega

theorem foldl_min_mem [LinearOrder K] (l : List (Nat × Pt K Q)) (a : K) :
    l.foldl (fun m x => min m x.2.b) a = a ∨ ∃ x ∈ l, l.foldl (fun m x => min m x.2.b) a = x.2.b := by
  induction l generalizing a with
  | nil => simp
  | cons c t ih =>
    rw [List.foldl_cons]
    rcases ih (min a c.2.b) with h | ⟨x, hx, h⟩
    · rw [h]
      rcases min_choice a c.2.b with h' | h' <;> rw [h'] <;> simp
    · exact Or.inr ⟨x, by simp [hx], h⟩

/-- Widest row of survivors. -/
def maxSurvivors (p : Pt K Q → Bool) (X : List (List (Pt K Q))) : Nat := (X.map fun D => (D.filter p).length).foldl max 0

/-- Smallest birth of `l`, 0 if there is none. -/
def minBirth [LinearOrder K] [Zero K] : List (Pt K Q) → K
  | [] => 0
  | s :: rest => rest.foldl (fun m x => min m x.b) s.b

theorem filterDim_eq [LinearOrder K] [Zero K] (alive : Pt K Q → Bool) (X : List (List (Pt K Q))) (q : Q) :
    let p := fun x : Pt K Q => decide (x.q = q) && alive x
    let m := minBirth (X.flatMap fun D => D.filter p)
    filterDim alive X q =
      X.map fun D => D.filter p ++ List.replicate (max (maxSurvivors p X) 1 - (D.filter p).length) ⟨m, m, q⟩ := by
  intro p m
  have hsnd := selFrom_snd p 0 X
  unfold filterDim
  simp only [selected_eq]
  cases hsel : selFrom p 0 X with
  | nil =>
    simp only
    have hflat : (X.flatMap fun D => D.filter p) = [] := by rw [← hsnd, hsel]; rfl
    have hall : ∀ D ∈ X, D.filter p = [] := by
      intro D hD
      exact List.flatMap_eq_nil_iff.mp hflat D hD
    have hm : m = 0 := by simp only [m]; rw [hflat]; rfl
    have hM : maxSurvivors p X = 0 := by
      unfold maxSurvivors
      rcases foldl_max_mem (X.map fun D => (D.filter p).length) 0 with h | h
      · exact h
      · rw [List.mem_map] at h
        obtain ⟨D, hD, h⟩ := h
        rw [← h, hall D hD]; rfl
    rw [← List.map_const' (l := X)]
    apply List.map_congr_left
    intro D hD
    rw [hall D hD, hM, hm]
    rfl
  | cons s rest =>
    simp only
    rw [← hsel]
    rw [runCounts_selFrom]
    have hc1 : ∀ c ∈ (X.map fun D => (D.filter p).length).filter (fun c => decide (0 < c)), 0 < c := by
      intro c hc
      simpa using (List.mem_filter.mp hc).2
    have hc2 : (X.map fun D => (D.filter p).length).filter (fun c => decide (0 < c)) ≠ [] := by
      intro he
      rw [← runCounts_selFrom p 0 X] at he
      simp only [runCounts, List.map_eq_nil_iff] at he
      rw [List.dedup_eq_nil, List.map_eq_nil_iff] at he
      rw [hsel] at he
      simp at he
    have hmr := multirange_eq _ hc2 hc1
    rw [hmr, flatMap_filter_pos _ _ (by simp)]
    have hz := zip_writes p 0 X
    rw [hz, foldl_max_filter_pos]
    have hMpos : 0 < maxSurvivors p X := by
      obtain ⟨c, hc⟩ := List.exists_mem_of_ne_nil _ hc2
      have h1 := hc1 c hc
      have h2 := (le_foldl_max (X.map fun D => (D.filter p).length) 0).2 c (List.mem_filter.mp hc).1
      exact lt_of_lt_of_le h1 h2
    have hm : rest.foldl (fun m x => min m x.2.b) s.2.b = m := by
      have : (X.flatMap fun D => D.filter p) = s.2 :: rest.map Prod.snd := by
        rw [← selFrom_snd p 0 X, hsel]; rfl
      simp only [m]
      rw [this, minBirth, List.foldl_map]
    rw [hm]
    have hf := fill_rows p ⟨m, m, q⟩ (maxSurvivors p X) 0 X [] rfl (by
      intro D hD
      exact (le_foldl_max (X.map fun D => (D.filter p).length) 0).2 _ (List.mem_map.mpr ⟨D, hD, rfl⟩))
    rw [List.nil_append, List.nil_append] at hf
    rw [Nat.max_eq_left hMpos]
    exact hf

end

section
variable {K Q : Type} [Field K] [LinearOrder K] [LinearOrder Q]

/-- Sorted distinct homology dimensions of the first diagram. -/
def dims0 (X : List (List (Pt K Q))) : List Q := (((X.headD []).map Pt.q).dedup).insertionSort (· ≤ ·)

/-- Predicate for survival in one dimension. -/
def aliveIn (e : K) (q : Q) (p : Pt K Q) : Bool := decide (p.q = q) && decide (e < p.d - p.b)

theorem longLived_eq (e : K) (D : List (Pt K Q)) (q : Q) : longLived e D q = D.filter (aliveIn e q) := rfl

/-- Padding point used in dimension `q`. -/
def padPt (X : List (List (Pt K Q))) (e : K) (q : Q) : Pt K Q :=
  ⟨minBirth (X.flatMap fun D => longLived e D q), minBirth (X.flatMap fun D => longLived e D q), q⟩

/-- Width of the block of dimension `q`. -/
def widthOf (X : List (List (Pt K Q))) (e : K) (q : Q) : Nat := max ((X.map fun D => (longLived e D q).length).foldl max 0) 1

/-- Output of filtering for one diagram of the collection. -/
def filterOne (X : List (List (Pt K Q))) (fd : List Q) (e : K) (D : List (Pt K Q)) : List (Pt K Q) :=
  (fd.flatMap fun q => longLived e D q ++ List.replicate (widthOf X e q - (longLived e D q).length) (padPt X e q)) ++
    ((dims0 X).filter fun q => q ∉ fd).flatMap fun q => pointsIn D q

theorem foldr_append_last {α : Type} (n : Nat) (L : List (List (List α))) (l : List (List α)) (hl : l.length = n) :
    (L ++ [l]).foldr (List.zipWith (· ++ ·)) (List.replicate n []) = L.foldr (List.zipWith (· ++ ·)) l := by
  rw [List.foldr_append]
  congr 1
  simp only [List.foldr_cons, List.foldr_nil]
  subst hl
  induction l with
  | nil => rfl
  | cons a t ih => simpa [List.replicate_succ] using ih

theorem concat_map' {α β γ : Type} (X : List α) (F : β → α → List γ) (G : α → List γ) (qs : List β) :
    (qs.map fun q => X.map (F q)).foldr (List.zipWith (· ++ ·)) (X.map G) =
      X.map fun D => (qs.flatMap fun q => F q D) ++ G D := by
  induction qs with
  | nil => simp
  | cons q t ih =>
    rw [List.map_cons, List.foldr_cons, ih, List.zipWith_map, List.zipWith_self]
    simp [List.flatMap_cons]

theorem filterDiagrams_eq (X : List (List (Pt K Q))) (fd : List Q) (e : K) (hX : X ≠ []) (h : ∀ q, q ∉ fd → EqualCounts X q) :
    filterDiagrams X fd e = .ok (X.map (filterOne X fd e)) := by
  obtain ⟨X0, Xt, rfl⟩ := List.exists_cons_of_ne_nil hX
  set X := X0 :: Xt with hXdef
  have hd0 : ((X0.map Pt.q).dedup).insertionSort (· ≤ ·) = dims0 X := rfl
  have huf : unfilteredPart X ((dims0 X).filter fun q => q ∉ fd) =
      .ok (X.map fun D => ((dims0 X).filter fun q => q ∉ fd).flatMap fun q => pointsIn D q) := by
    unfold unfilteredPart
    split
    · next h0 =>
      rw [List.length_eq_zero_iff] at h0
      rw [h0]
      congr 1
      simp only [List.flatMap_nil]
      rw [List.map_const']
    · next h0 =>
      rw [subdiagrams_eq X _ hX (by intro h'; exact h0 (by rw [h']; rfl))]
      intro q hq
      apply h
      simpa using (List.mem_filter.mp hq).2
  unfold filterDiagrams
  simp only [hXdef]
  rw [← hXdef]
  simp only [hd0]
  rw [huf, ok_bind]
  have hmap : fd.map (filterDim (fun p => decide (e < p.d - p.b)) X) =
      fd.map fun q => X.map fun D => longLived e D q ++
        List.replicate (widthOf X e q - (longLived e D q).length) (padPt X e q) := by
    apply List.map_congr_left
    intro q _
    exact filterDim_eq _ X q
  rw [hmap]
  have hne : ∀ (L : List (List (List (Pt K Q)))) l, concatAxis1 X.length (L ++ [l]) =
      .ok ((L ++ [l]).foldr (List.zipWith (· ++ ·)) (List.replicate X.length [])) := by
    intro L l
    cases L <;> rfl
  rw [hne, foldr_append_last _ _ _ (by simp), concat_map']
  rfl

/-! ### Points per dimension of the filtered collection -/

theorem pointsIn_append (A B : List (Pt K Q)) (q : Q) : pointsIn (A ++ B) q = pointsIn A q ++ pointsIn B q := List.filter_append ..

theorem mem_dims0 (X : List (List (Pt K Q))) (q : Q) : q ∈ dims0 X ↔ ∃ p ∈ X.headD [], p.q = q := by
  unfold dims0
  rw [List.mem_insertionSort, List.mem_dedup, List.mem_map]

theorem dims0_nodup (X : List (List (Pt K Q))) : (dims0 X).Nodup :=
  (List.perm_insertionSort _ _).nodup_iff.mpr (List.nodup_dedup _)

theorem dims0_sorted (X : List (List (Pt K Q))) : (dims0 X).Pairwise (· ≤ ·) := List.pairwise_insertionSort _ _

theorem longLived_q (e : K) (D : List (Pt K Q)) (q : Q) : ∀ p ∈ longLived e D q, p.q = q := by
  intro p hp
  have := (List.mem_filter.mp hp).2
  simp at this
  exact this.1

theorem pointsIn_q (D : List (Pt K Q)) (q : Q) : ∀ p ∈ pointsIn D q, p.q = q := by
  intro p hp
  simpa using (List.mem_filter.mp hp).2

theorem pointsIn_filterOne_mem (X : List (List (Pt K Q))) (fd : List Q) (hfd : fd.Nodup) (e : K) (D : List (Pt K Q)) (q : Q)
    (hq : q ∈ fd) :
    pointsIn (filterOne X fd e D) q =
      longLived e D q ++ List.replicate (widthOf X e q - (longLived e D q).length) (padPt X e q) := by
  unfold filterOne
  rw [pointsIn_append, pointsIn_flatMap _ _ _ hfd, if_pos hq, pointsIn_flatMap _ _ _ ((dims0_nodup X).filter _), if_neg]
  · simp
  · simp [hq]
  · intro q _; exact pointsIn_q D q
  · intro q _ p hp
    rcases List.mem_append.mp hp with hp | hp
    · exact longLived_q e D q p hp
    · rw [(List.mem_replicate.mp hp).2]; rfl

theorem pointsIn_filterOne_not_mem (X : List (List (Pt K Q))) (fd : List Q) (hfd : fd.Nodup) (e : K) (D : List (Pt K Q)) (hD : D ∈ X)
    (q : Q) (hq : q ∉ fd) (hX : EqualCounts X q) : pointsIn (filterOne X fd e D) q = pointsIn D q := by
  unfold filterOne
  rw [pointsIn_append, pointsIn_flatMap _ _ _ hfd, if_neg hq, pointsIn_flatMap _ _ _ ((dims0_nodup X).filter _), List.nil_append]
  · by_cases h0 : q ∈ dims0 X
    · rw [if_pos]
      simp [h0, hq]
    · rw [if_neg (by simp [h0])]
      obtain ⟨X0, Xt, rfl⟩ := List.exists_cons_of_ne_nil (List.ne_nil_of_mem hD)
      have h1 : pointsIn X0 q = [] := by
        apply List.filter_eq_nil_iff.mpr
        intro p hp hpq
        apply h0
        rw [mem_dims0]
        exact ⟨p, by simpa using hp, by simpa using hpq⟩
      have h2 := hX D hD X0 (by simp)
      rw [h1] at h2
      exact (List.length_eq_zero_iff.mp h2).symm
  · intro q _; exact pointsIn_q D q
  · intro q _ p hp
    rcases List.mem_append.mp hp with hp | hp
    · exact longLived_q e D q p hp
    · rw [(List.mem_replicate.mp hp).2]; rfl

theorem longLived_eq_filter (e : K) (D : List (Pt K Q)) (q : Q) :
    longLived e D q = (pointsIn D q).filter fun p => decide (e < p.d - p.b) := by
  unfold longLived pointsIn
  rw [List.filter_filter]
  apply List.filter_congr
  intro p _
  rw [Bool.and_comm]

theorem longLived_le_width (X : List (List (Pt K Q))) (e : K) (q : Q) (D : List (Pt K Q)) (hD : D ∈ X) :
    (longLived e D q).length ≤ widthOf X e q :=
  le_trans ((le_foldl_max (X.map fun D => (longLived e D q).length) 0).2 _ (List.mem_map.mpr ⟨D, hD, rfl⟩)) (Nat.le_max_left _ _)

theorem equalCounts_filter (X : List (List (Pt K Q))) (fd : List Q) (hfd : fd.Nodup) (e : K) (q : Q) (h : q ∉ fd → EqualCounts X q) :
    EqualCounts (X.map (filterOne X fd e)) q := by
  intro A hA B hB
  obtain ⟨D, hD, rfl⟩ := List.mem_map.mp hA
  obtain ⟨D', hD', rfl⟩ := List.mem_map.mp hB
  by_cases hq : q ∈ fd
  · rw [pointsIn_filterOne_mem X fd hfd e D q hq, pointsIn_filterOne_mem X fd hfd e D' q hq]
    have h1 := longLived_le_width X e q D hD
    have h2 := longLived_le_width X e q D' hD'
    rw [List.length_append, List.length_append, List.length_replicate, List.length_replicate]
    omega
  · rw [pointsIn_filterOne_not_mem X fd hfd e D hD q hq (h hq), pointsIn_filterOne_not_mem X fd hfd e D' hD' q hq (h hq)]
    exact h hq D hD D' hD'

variable [IsStrictOrderedRing K]

theorem longLived_filterOne (X : List (List (Pt K Q))) (fd : List Q) (hfd : fd.Nodup) (e1 e2 : K) (he2 : 0 ≤ e2)
    (D : List (Pt K Q)) (q : Q) (hq : q ∈ fd) :
    longLived e2 (filterOne X fd e1 D) q = longLived (max e1 e2) D q := by
  rw [longLived_eq_filter, pointsIn_filterOne_mem X fd hfd e1 D q hq, List.filter_append]
  have h1 : (List.replicate (widthOf X e1 q - (longLived e1 D q).length) (padPt X e1 q)).filter
      (fun p => decide (e2 < p.d - p.b)) = [] := by
    apply List.filter_eq_nil_iff.mpr
    intro p hp
    rw [(List.mem_replicate.mp hp).2]
    simp [padPt, he2]
  rw [h1, List.append_nil]
  unfold longLived
  rw [List.filter_filter]
  apply List.filter_congr
  intro p _
  by_cases h : p.q = q <;> simp [h, Bool.and_comm, Bool.decide_and]

theorem dims0_unfiltered (X : List (List (Pt K Q))) (fd : List Q) (hfd : fd.Nodup) (e : K) (hX : X ≠ [])
    (h : ∀ q, q ∉ fd → EqualCounts X q) :
    (dims0 (X.map (filterOne X fd e))).filter (fun q => q ∉ fd) = (dims0 X).filter fun q => q ∉ fd := by
  apply List.Perm.eq_of_pairwise (le := (· ≤ ·))
  · intro a b _ _ h1 h2; exact le_antisymm h1 h2
  · exact (dims0_sorted _).filter _
  · exact (dims0_sorted _).filter _
  · rw [List.perm_ext_iff_of_nodup ((dims0_nodup _).filter _) ((dims0_nodup _).filter _)]
    intro q
    rw [List.mem_filter, List.mem_filter]
    apply and_congr_left
    intro hq
    have hq : q ∉ fd := by simpa using hq
    rw [mem_dims0, mem_dims0]
    obtain ⟨X0, Xt, rfl⟩ := List.exists_cons_of_ne_nil hX
    have hp := pointsIn_filterOne_not_mem (X0 :: Xt) fd hfd e X0 (by simp) q hq (h q hq)
    simp only [List.map_cons, List.headD_cons]
    have key : ∀ A : List (Pt K Q), (∃ p ∈ A, p.q = q) ↔ pointsIn A q ≠ [] := by
      intro A
      unfold pointsIn
      simp
    rw [key, key, hp]

theorem filter_filter (X : List (List (Pt K Q))) (fd : List Q) (hfd : fd.Nodup) (e1 e2 : K) (he2 : 0 ≤ e2) (hX : X ≠ [])
    (h : ∀ q, q ∉ fd → EqualCounts X q) :
    (X.map (filterOne X fd e1)).map (filterOne (X.map (filterOne X fd e1)) fd e2) = X.map (filterOne X fd (max e1 e2)) := by
  rw [List.map_map]
  apply List.map_congr_left
  intro D hD
  simp only [Function.comp]
  have hll : ∀ q ∈ fd, ((X.map (filterOne X fd e1)).flatMap fun D => longLived e2 D q) =
      X.flatMap fun D => longLived (max e1 e2) D q := by
    intro q hq
    rw [List.flatMap_map]
    congr 1
    funext D
    exact longLived_filterOne X fd hfd e1 e2 he2 D q hq
  have hpad : ∀ q ∈ fd, padPt (X.map (filterOne X fd e1)) e2 q = padPt X (max e1 e2) q := by
    intro q hq
    unfold padPt
    rw [hll q hq]
  have hw : ∀ q ∈ fd, widthOf (X.map (filterOne X fd e1)) e2 q = widthOf X (max e1 e2) q := by
    intro q hq
    unfold widthOf
    rw [List.map_map]
    congr 2
    apply List.map_congr_left
    intro D _
    simp only [Function.comp]
    rw [longLived_filterOne X fd hfd e1 e2 he2 D q hq]
  unfold filterOne
  congr 1
  · rw [← List.flatMap_congr (f := fun q => longLived (max e1 e2) D q ++
      List.replicate (widthOf X (max e1 e2) q - (longLived (max e1 e2) D q).length) (padPt X (max e1 e2) q))]
    intro q hq
    have := longLived_filterOne X fd hfd e1 e2 he2 D q hq
    unfold filterOne at this
    rw [this]
    have h1 := hpad q hq
    have h2 := hw q hq
    unfold filterOne at h1 h2
    rw [h1, h2]
  · have := dims0_unfiltered X fd hfd e1 hX h
    unfold filterOne at this
    rw [this]
    apply List.flatMap_congr
    intro q hq
    have hq' : q ∉ fd := by simpa using (List.mem_filter.mp hq).2
    exact pointsIn_filterOne_not_mem X fd hfd e1 D hD q hq' (h q hq')

end

end Gtda.Diagrams
