import Verif.Spec.Homology
import Verif.Lemmas.Diagrams

set_option autoImplicit false

/-! Lemmas about `_postprocess_diagrams`. -/

namespace Gtda.Diagrams
open Gtda.Py

theorem assignSlice_seg {α β : Type} (upd : α → β → α) (pre seg post : List α) (vals : List β) (h : seg.length = vals.length) :
    assignSlice upd (pre ++ (seg ++ post)) pre.length vals = pre ++ (List.zipWith upd seg vals ++ post) := by
  unfold assignSlice
  apply List.ext_getElem?
  intro k
  rw [List.getElem?_mapIdx]
  rcases Nat.lt_or_ge k pre.length with hk | hk
  · rw [List.getElem?_append_left hk, List.getElem?_append_left hk, List.getElem?_eq_getElem hk]
    simp [Nat.not_le.mpr hk]
  · rw [List.getElem?_append_right hk, List.getElem?_append_right hk]
    rcases Nat.lt_or_ge (k - pre.length) seg.length with hs | hs
    · have hv : k - pre.length < vals.length := by omega
      rw [List.getElem?_append_left hs, List.getElem?_append_left (by simp; omega), List.getElem?_zipWith,
        List.getElem?_eq_getElem hs, List.getElem?_eq_getElem hv]
      simp [hk]
    · rw [List.getElem?_append_right hs, List.getElem?_append_right (by simp; omega), List.length_zipWith, ← h, Nat.min_self,
        List.getElem?_eq_none (show vals.length ≤ k - pre.length by omega)]
      cases post[k - pre.length - seg.length]? <;> simp

theorem zipWith_replicate_right {α β γ : Type} (f : α → β → γ) (l : List α) (b : β) :
    List.zipWith f l (List.replicate l.length b) = l.map fun a => f a b := by
  induction l with
  | nil => rfl
  | cons a t ih => simp [List.replicate_succ, ih]

section
variable {V : Type} [LinearOrder V]

/-- The block of one homology dimension on one row. -/
def blockOf (dim width : Nat) (pad : V) (sub : List (V × V)) : List (Pt V Nat) :=
  sub.map (fun v => ⟨v.1, v.2, dim⟩) ++ List.replicate (width - sub.length) ⟨pad, pad, dim⟩

theorem length_blockOf (dim width : Nat) (pad : V) (sub : List (V × V)) (h : sub.length ≤ width) :
    (blockOf dim width pad sub).length = width := by
  simp [blockOf]; omega

theorem zipWith_bd (dim : Nat) (seg : List (Pt V Nat)) (sub : List (V × V)) (h : seg.length = sub.length) :
    List.zipWith (fun (p : Pt V Nat) (v : V × V) => ({ p with b := v.1, d := v.2 } : Pt V Nat))
      (seg.map fun p => ({ p with q := dim } : Pt V Nat)) sub = sub.map fun v => ⟨v.1, v.2, dim⟩ := by
  induction seg generalizing sub with
  | nil => cases sub with | nil => rfl | cons _ _ => simp at h
  | cons a t ih =>
    cases sub with
    | nil => simp at h
    | cons x s => simp [ih s (by simpa using h)]

theorem writeDim_seg (pre seg post : List (Pt V Nat)) (dim width : Nat) (pad : V) (sub : List (V × V)) (hseg : seg.length = width)
    (hsub : sub.length ≤ width) :
    writeDim (pre ++ (seg ++ post)) dim pre.length (pre.length + width) pad sub = pre ++ (blockOf dim width pad sub ++ post) := by
  unfold writeDim
  simp only [Nat.add_sub_cancel_left]
  rw [assignSlice_seg _ _ _ _ _ (by simp [hseg])]
  rw [← hseg, zipWith_replicate_right, hseg]
  set seg' := seg.map fun p => ({ p with q := dim } : Pt V Nat) with hs'
  have hsplit : seg' = seg'.take sub.length ++ seg'.drop sub.length := (List.take_append_drop _ _).symm
  have hl' : seg'.length = width := by simp [hs', hseg]
  rw [hsplit, List.append_assoc, assignSlice_seg _ _ _ _ _ (by simp [hl', hsub])]
  have h1 : seg'.take sub.length = (seg.take sub.length).map fun p => ({ p with q := dim } : Pt V Nat) := by
    rw [hs', List.map_take]
  rw [h1, zipWith_bd dim _ _ (by simp [hseg, hsub])]
  set blk := sub.map fun v => (⟨v.1, v.2, dim⟩ : Pt V Nat) with hblk
  rw [← List.append_assoc]
  have hlen : pre.length + sub.length = (pre ++ blk).length := by simp [hblk]
  rw [hlen]
  have hd : (seg'.drop sub.length).length = (pre.length + width) - (pre ++ blk).length := by
    rw [← hlen, List.length_drop, hl']; omega
  rw [assignSlice_seg _ _ _ _ _ (by simp only [List.length_replicate]; exact hd), ← hd, zipWith_replicate_right]
  rw [List.append_assoc, blockOf, List.append_assoc]
  congr 3
  rw [hs', ← List.map_drop, List.map_map]
  simp only [Function.comp_def]
  rw [List.map_const', List.length_drop, hseg]

theorem ncsum_getD (s : Nat) (l : List Nat) (i : Nat) (hi : i < l.length) : (ncsum s l).getD i 0 = s + (l.take (i + 1)).sum := by
  induction l generalizing s i with
  | nil => simp at hi
  | cons c t ih =>
    cases i with
    | zero => simp [ncsum]
    | succ i =>
      rw [ncsum, List.getD_cons_succ, ih (s + c) i (by simpa using hi), List.take_succ_cons, List.sum_cons]
      omega

theorem fold_blocks (dims widths : List Nat) (pads : List V) (zero : V) (S : List (List (V × V))) (starts : List Nat)
    (garb : List (Pt V Nat)) (hst : ∀ i ≤ widths.length, starts.getD i 0 = (widths.take i).sum)
    (hg : garb.length = widths.sum) (hS : ∀ i < widths.length, (S.getD i []).length ≤ widths.getD i 0) (n : Nat)
    (hn : n ≤ widths.length) :
    (List.range n).foldl
      (fun row i => writeDim row (dims.getD i 0) (starts.getD i 0) (starts.getD (i + 1) 0) (pads.getD i zero) (S.getD i [])) garb =
    ((List.range n).flatMap fun i => blockOf (dims.getD i 0) (widths.getD i 0) (pads.getD i zero) (S.getD i [])) ++
      garb.drop (widths.take n).sum := by
  induction n with
  | zero => simp
  | succ n ih =>
    rw [List.range_succ, List.foldl_append, List.foldl_cons, List.foldl_nil, ih (by omega), List.flatMap_append]
    set pre := (List.range n).flatMap fun i => blockOf (dims.getD i 0) (widths.getD i 0) (pads.getD i zero) (S.getD i []) with hpre
    have hlen : pre.length = (widths.take n).sum := by
      rw [hpre, List.length_flatMap]
      congr 1
      apply List.ext_getElem
      · simp; omega
      · intro i h1 h2
        simp only [List.length_map, List.length_range] at h1
        rw [List.getElem_map, List.getElem_range, length_blockOf _ _ _ _ (hS i (by omega)), List.getElem_take]
        exact (List.getElem_eq_getD 0).symm
    have hw : (widths.take (n + 1)).sum = (widths.take n).sum + widths.getD n 0 := by
      rw [List.take_add_one, List.sum_append, List.getElem?_eq_getElem (by omega)]
      simp [List.getD_eq_getElem?_getD, List.getElem?_eq_getElem (show n < widths.length by omega)]
    rw [hst n (by omega), hst (n + 1) hn, hw, ← hlen]
    have hsum : (widths.take (n + 1)).sum ≤ widths.sum := by
      conv_rhs => rw [← List.take_append_drop (n + 1) widths, List.sum_append]
      omega
    have hsplit : garb.drop pre.length = (garb.drop pre.length).take (widths.getD n 0) ++ garb.drop (pre.length + widths.getD n 0) := by
      rw [← List.drop_drop, List.take_append_drop]
    rw [hsplit, writeDim_seg _ _ _ _ _ _ _ (by rw [List.length_take, List.length_drop]; omega) (hS n (by omega))]
    simp

/-- The postprocessed collection, given the subdiagrams per sample. -/
def assembled (dims : List Nat) (zero : V) (subs : List (List (List (V × V)))) : List (List (Pt V Nat)) :=
  subs.map fun S => (List.range dims.length).flatMap fun i =>
    blockOf (dims.getD i 0) ((subs.map fun S => (S.getD i []).length).foldl max 1)
      (padValue zero (subs.flatMap fun S => (S.getD i []).map Prod.fst)) (S.getD i [])

theorem postprocess_eq (fmt : Format) (dims : List Nat) (inf zero lowest : V) (reduced : Bool) (garbage : Nat → Nat → Pt V Nat)
    (Xt : List (RawDiagram V)) (subs : List (List (List (V × V)))) (hf : fmt ≠ .other) (hX : Xt ≠ [])
    (hs : (Xt.mapM fun D => dims.mapM fun dim => (replaceInfinity inf zero lowest <$> rawSub fmt reduced dim D)) = .ok subs) :
    postprocess fmt dims inf zero lowest reduced garbage Xt = .ok (assembled dims zero subs) := by
  unfold postprocess
  rw [if_neg hf, hs, ok_bind, if_neg (by simp [hX])]
  dsimp only
  congr 1
  rw [assembled, List.mapIdx_eq_zipIdx_map]
  set widths := (List.range dims.length).map fun i => (subs.map fun S => (S.getD i []).length).foldl max 1 with hw
  set pads := (List.range dims.length).map fun i => padValue zero (subs.flatMap fun S => (S.getD i []).map Prod.fst) with hp
  have hstarts : (cumsum (((0 : Nat) :: widths).map fun (w : Nat) => (w : Int))).map Int.toNat = ncsum 0 (0 :: widths) := by
    have h0 := csum_cast 0 (0 :: widths)
    rw [Nat.cast_zero] at h0
    exact h0
  rw [hstarts, ncsum_last _ _ (by simp)]
  have hwl : widths.length = dims.length := by simp [hw]
  apply List.ext_getElem
  · simp
  · intro j h1 h2
    rw [List.getElem_map, List.getElem_map, List.getElem_zipIdx]
    simp only
    have hS : subs[j]'(by simpa using h2) ∈ subs := List.getElem_mem _
    set S := subs[j]'(by simpa using h2)
    have hwi : ∀ i < dims.length, widths.getD i 0 = (subs.map fun S => (S.getD i []).length).foldl max 1 := by
      intro i hi
      simp [hw, List.getD_eq_getElem?_getD, hi]
    have hpi : ∀ i < dims.length, pads.getD i zero = padValue zero (subs.flatMap fun S => (S.getD i []).map Prod.fst) := by
      intro i hi
      simp [hp, List.getD_eq_getElem?_getD, hi]
    have hfold := fold_blocks dims widths pads zero S (ncsum 0 (0 :: widths)) ((List.range (0 + (0 :: widths).sum)).map (garbage (0 + j)))
      (by
        intro i hi
        rw [ncsum_getD _ _ _ (by simp; omega)]
        simp)
      (by simp)
      (by
        intro i hi
        rw [hwi i (by omega)]
        exact (le_foldl_max _ 1).2 _ (List.mem_map.mpr ⟨S, hS, rfl⟩))
      dims.length (by omega)
    rw [hfold]
    have hdrop : ((List.range (0 + (0 :: widths).sum)).map (garbage (0 + j))).drop (widths.take dims.length).sum = [] := by
      rw [← hwl, List.take_length]
      simp
    rw [hdrop, List.append_nil]
    apply List.flatMap_congr
    intro i hi
    rw [List.mem_range] at hi
    rw [hwi i hi, hpi i hi]

theorem rawSub_ok (fmt : Format) (dims : List Nat) (inf zero lowest : V) (reduced : Bool) (D : RawDiagram V) (h : WellFormed fmt dims D)
    (q : Nat) (hq : q ∈ dims) :
    (replaceInfinity inf zero lowest <$> rawSub fmt reduced q D) = .ok (expectedBars inf zero lowest reduced D q) := by
  have hrep : ∀ s : List (Raw V × Raw V), replaceInfinity inf zero lowest s =
      s.filterMap fun r => if nanToNum inf zero lowest r.1 < nanToNum inf zero lowest r.2 then
        some (nanToNum inf zero lowest r.1, nanToNum inf zero lowest r.2) else none := by
    intro s
    unfold replaceInfinity
    induction s with
    | nil => rfl
    | cons a t ih =>
      rw [List.map_cons, List.filterMap_cons]
      by_cases hlt : nanToNum inf zero lowest a.1 < nanToNum inf zero lowest a.2
      · rw [List.filter_cons_of_pos (by simpa using hlt), if_pos hlt, ih]
      · rw [List.filter_cons_of_neg (by simpa using hlt), if_neg hlt, ih]
  have hexp : ∀ bars : List (Raw V × Raw V),
      bars = (if q = 0 ∧ reduced = true then withoutOne D (rawBars D q) else rawBars D q) →
      replaceInfinity inf zero lowest bars = expectedBars inf zero lowest reduced D q := by
    intro bars hb
    rw [hrep]
    unfold expectedBars
    simp only
    rw [← hb]
    rfl
  have hcond : ∀ (A B : List (Raw V × Raw V)), (if q ≠ 0 ∨ reduced = false then A else B) = if q = 0 ∧ reduced = true then B else A := by
    intro A B
    by_cases h1 : q = 0 <;> cases reduced <;> simp [h1]
  cases D with
  | byDim l =>
    have hlt : fmt ≠ .gudhi ∧ fmt ≠ .other ∧ q < l.length := by
      cases fmt <;> first | exact absurd h id | exact ⟨by decide, by decide, h q hq⟩
    have hq' := hlt.2.2
    have hr : rawSub fmt reduced q (.byDim l) = .ok (if q ≠ 0 ∨ reduced = false then l[q] else l[q].dropLast) := by
      cases fmt with
      | gudhi => exact absurd rfl hlt.1
      | other => exact absurd rfl hlt.2.1
      | ripser => simp [rawSub, List.getElem?_eq_getElem hq']
      | flagser => simp [rawSub, List.getElem?_eq_getElem hq']
    rw [hr, ok_map]
    congr 1
    apply hexp
    rw [hcond]
    simp [rawBars, withoutOne, List.getD_eq_getElem?_getD, List.getElem?_eq_getElem hq']
  | gudhi l =>
    have hf : fmt = .gudhi := by
      cases fmt <;> first | exact absurd h id | rfl
    subst hf
    simp only [rawSub, ok_map]
    congr 1
    apply hexp
    have hraw : (l.filter fun p => decide (p.1 = q)).map Prod.snd = rawBars (.gudhi l) q := by
      simp only [rawBars]
      clear hexp h
      induction l with
      | nil => rfl
      | cons a t ih =>
        rw [List.filterMap_cons]
        by_cases ha : a.1 = q
        · rw [List.filter_cons_of_pos (by simpa using ha), List.map_cons, if_pos ha, ih]
        · rw [List.filter_cons_of_neg (by simpa using ha), if_neg ha, ih]
    rw [hcond, hraw, List.drop_one]
    rfl

theorem subs_ok (fmt : Format) (dims : List Nat) (inf zero lowest : V) (reduced : Bool) (Xt : List (RawDiagram V))
    (h : ∀ D ∈ Xt, WellFormed fmt dims D) :
    (Xt.mapM fun D => dims.mapM fun dim => (replaceInfinity inf zero lowest <$> rawSub fmt reduced dim D)) =
      .ok (Xt.map fun D => dims.map (expectedBars inf zero lowest reduced D)) := by
  apply mapM_ok
  intro D hD
  apply mapM_ok
  intro q hq
  exact rawSub_ok fmt dims inf zero lowest reduced D (h D hD) q hq

/-- Width of the block of dimension `q`. -/
def barWidth (inf zero lowest : V) (reduced : Bool) (Xt : List (RawDiagram V)) (q : Nat) : Nat :=
  (Xt.map fun D => (expectedBars inf zero lowest reduced D q).length).foldl max 1

/-- Padding value in dimension `q`. -/
def barPad (inf zero lowest : V) (reduced : Bool) (Xt : List (RawDiagram V)) (q : Nat) : V :=
  padValue zero (Xt.flatMap fun D => (expectedBars inf zero lowest reduced D q).map Prod.fst)

theorem postprocess_form (fmt : Format) (dims : List Nat) (inf zero lowest : V) (reduced : Bool) (garbage : Nat → Nat → Pt V Nat)
    (Xt : List (RawDiagram V)) (hX : Xt ≠ []) (h : ∀ D ∈ Xt, WellFormed fmt dims D) :
    postprocess fmt dims inf zero lowest reduced garbage Xt =
      .ok (Xt.map fun D => dims.flatMap fun q =>
        blockOf q (barWidth inf zero lowest reduced Xt q) (barPad inf zero lowest reduced Xt q) (expectedBars inf zero lowest reduced D q)) := by
  have hf : fmt ≠ .other := by
    rintro rfl
    obtain ⟨D, hD⟩ := List.exists_mem_of_ne_nil _ hX
    have := h D hD
    cases D <;> exact this
  rw [postprocess_eq fmt dims inf zero lowest reduced garbage Xt _ hf hX (subs_ok fmt dims inf zero lowest reduced Xt h), assembled,
    List.map_map]
  congr 1
  apply List.map_congr_left
  intro D hD
  simp only [Function.comp]
  have hget : ∀ (i : Nat) (hi : i < dims.length) (D : RawDiagram V),
      (dims.map (expectedBars inf zero lowest reduced D)).getD i [] = expectedBars inf zero lowest reduced D dims[i] := by
    intro i hi D
    simp [List.getD_eq_getElem?_getD, hi]
  have : dims = (List.range dims.length).map fun i => dims.getD i 0 := by
    apply List.ext_getElem
    · simp
    · intro i h1 h2
      simp [List.getD_eq_getElem?_getD, h1]
  conv_rhs => rw [this, List.flatMap_map]
  apply List.flatMap_congr
  intro i hi
  rw [List.mem_range] at hi
  have hdi : dims.getD i 0 = dims[i] := by simp [List.getD_eq_getElem?_getD, hi]
  rw [hget i hi, hdi, barWidth, barPad]
  congr 1
  · rw [List.map_map]
    congr 1
    apply List.map_congr_left
    intro D _
    simp only [Function.comp]
    rw [hget i hi]
  · rw [List.flatMap_map]
    congr 1
    apply List.flatMap_congr
    intro D _
    rw [hget i hi]

end

end Gtda.Diagrams
