import Verif.Lemmas.Cover
import Verif.Py.Basic
import Verif.Lemmas.TimeSeries
import Mathlib.Data.Rat.Floor

set_option autoImplicit false

/-!
# C40–C44: covers
-/

namespace Gtda.Props
open Gtda.Py Gtda.Mapper Gtda.Spec Gtda.TimeSeries

/-! ### C43 -/

theorem idxOf_filter_lt {α : Type} [BEq α] [LawfulBEq α] (p : α → Bool) (l : List α) (a b : α) (ha : p a) (hb : p b)
    (h : (l.filter p).idxOf a < (l.filter p).idxOf b) : l.idxOf a < l.idxOf b := by
  induction l with
  | nil => simp at h
  | cons x t ih =>
    by_cases hx : p x
    · rw [List.filter_cons_of_pos hx] at h
      by_cases hxa : x = a
      · subst hxa
        by_cases hxb : x = b
        · subst hxb; omega
        · rw [List.idxOf_cons_self, List.idxOf_cons_ne _ hxb]; omega
      · by_cases hxb : x = b
        · subst hxb; rw [List.idxOf_cons_self] at h; omega
        · rw [List.idxOf_cons_ne _ hxa, List.idxOf_cons_ne _ hxb] at h ⊢
          have := ih (by omega); omega
    · rw [List.filter_cons_of_neg hx] at h
      have hxa : x ≠ a := by rintro rfl; exact hx ha
      have hxb : x ≠ b := by rintro rfl; exact hx hb
      rw [List.idxOf_cons_ne _ hxa, List.idxOf_cons_ne _ hxb]
      have := ih h; omega

/-- **C43.** The final cleaning of every cover: the returned sets are exactly the non-empty sets among the given ones, each once, in order of first
occurrence; a sample is in a returned set exactly when it is in a given one. -/
theorem C43_clean_masks (cols : List (List Bool)) :
    (∀ c, c ∈ cleanMasks cols ↔ c ∈ cols ∧ true ∈ c) ∧ (cleanMasks cols).Nodup ∧
    (cleanMasks cols).Pairwise (fun c d => cols.idxOf c < cols.idxOf d) ∧
    ∀ i : Nat, (∃ c ∈ cleanMasks cols, c[i]? = some true) ↔ ∃ c ∈ cols, c[i]? = some true := by
  have hmem : ∀ c, c ∈ cleanMasks cols ↔ c ∈ cols ∧ true ∈ c := by
    intro c
    rw [cleanMasks_eq, mem_firstOcc, List.mem_filter]
    simp [List.any_eq_true]
  have hsort := firstOcc_sorted (cols.filter fun c => c.any id)
  refine ⟨hmem, ?_, ?_, ?_⟩
  · rw [cleanMasks_eq]
    exact hsort.imp (by intro a b h heq; rw [heq] at h; omega)
  · rw [cleanMasks_eq]
    apply List.Pairwise.imp_of_mem _ hsort
    intro a b ha hb h
    rw [mem_firstOcc, List.mem_filter] at ha hb
    exact idxOf_filter_lt _ cols a b ha.2 hb.2 h
  · intro i
    constructor
    · rintro ⟨c, hc, hi⟩; exact ⟨c, ((hmem c).1 hc).1, hi⟩
    · rintro ⟨c, hc, hi⟩; exact ⟨c, (hmem c).2 ⟨hc, List.mem_of_getElem? hi⟩, hi⟩

example : cleanMasks [[false, false], [true, true], [false, true], [true, true], [true, false]] =
    [[true, true], [false, true], [true, false]] := by decide +kernel

/-! ### C40 -/

section
variable {K : Type} [Field K] [LinearOrder K] [IsStrictOrderedRing K]

/-- **C40.** Uniform covers. For data with minimum `lo` and maximum `hi` (different, unless one interval is requested), the fitted intervals are
`(lo + k(1-f)·len, lo + k(1-f)·len + len)`, `k = 0, …, n-1`, with the first and last one made unbounded, where `len` is such that the
unmodified intervals exactly span `[lo, hi]`; they cover the whole line, neighbours overlap in the fraction `f` of their length, and no point is in
more than two of them if `f ≤ 1/2`. -/
theorem C40_uniform_cover (n : Nat) (hn : 1 ≤ n) (f : K) (hf0 : 0 < f) (hf1 : f < 1) (X : List K) (lo hi : K)
    (hlo : lo ∈ X ∧ ∀ x ∈ X, lo ≤ x) (hhi : hi ∈ X ∧ ∀ x ∈ X, x ≤ hi) (hd : lo < hi ∨ n = 1) :
    ∃ (ivs : List (Option K × Option K)) (len : K), fitUniform n f X = .ok ivs ∧ ivs.length = n ∧
      lo + ((n : K) - 1) * ((1 - f) * len) + len = hi ∧ (lo < hi → 0 < len) ∧
      (∀ k, k < n → ivs[k]? = some (if k = 0 then none else some (lo + k * ((1 - f) * len)),
        if k + 1 = n then none else some (lo + k * ((1 - f) * len) + len))) ∧
      (∀ x, ∃ I ∈ ivs, InOpen I x) ∧
      (∀ (k : Nat) I J r l, ivs[k]? = some I → ivs[k + 1]? = some J → I.2 = some r → J.1 = some l → r - l = f * len) ∧
      (f ≤ 1 / 2 → ∀ (i j k : Nat) I J L, i < j → j < k → ivs[i]? = some I → ivs[j]? = some J → ivs[k]? = some L →
        ∀ x, ¬ (InOpen I x ∧ InOpen J x ∧ InOpen L x)) := by
  cases X with
  | nil => exact absurd hlo.1 (by simp)
  | cons x t =>
    obtain ⟨m1, m2⟩ := foldl_min_spec t x
    obtain ⟨M1, M2⟩ := foldl_max_spec t x
    have hmin : t.foldl min x = lo := le_antisymm (m2 lo hlo.1) (hlo.2 _ m1)
    have hmax : t.foldl max x = hi := le_antisymm (hhi.2 _ M1) (M2 hi hhi.1)
    obtain ⟨e1, e2, e3⟩ := coverLimits_get lo hi n f
    have hlenmul := ilen_mul lo hi n hn f hf0 hf1
    have hden := denom_pos n hn f hf0 hf1
    have hlenpos : lo < hi → 0 < ilen lo hi n f := by
      intro h; unfold ilen; apply div_pos <;> linarith
    set len := ilen lo hi n f with hlen
    obtain ⟨o1, o2⟩ := openEnds_get ((coverLimits lo hi n f).1.map some) ((coverLimits lo hi n f).2.map some) n hn (by simp [e1]) (by simp [e2])
    have hget : ∀ k, k < n → (openEnds ((coverLimits lo hi n f).1.map some) ((coverLimits lo hi n f).2.map some))[k]? =
        some (if k = 0 then none else some (lo + k * ((1 - f) * len)),
          if k + 1 = n then none else some (lo + k * ((1 - f) * len) + len)) := by
      intro k hk
      exact o2 k _ _ (by rw [List.getElem?_map, (e3 k hk).1]; rfl) (by rw [List.getElem?_map, (e3 k hk).2]; rfl)
    have hgetlt : ∀ (k : Nat) (I : Ival K), (openEnds ((coverLimits lo hi n f).1.map some) ((coverLimits lo hi n f).2.map some))[k]? = some I → k < n := by
      intro k I h
      rw [← o1]; by_contra hh; rw [List.getElem?_eq_none (by omega)] at h; cases h
    refine ⟨openEnds ((coverLimits lo hi n f).1.map some) ((coverLimits lo hi n f).2.map some), len, ?_, o1, ?_, hlenpos, hget, ?_, ?_, ?_⟩
    · unfold fitUniform
      simp only [hmin, hmax]
      rw [if_neg]
      rintro ⟨h1, h2⟩
      rcases hd with h | h
      · exact absurd h1 h.ne
      · omega
    · linarith
    · intro y
      have hcov : ∃ k, k < n ∧ (k = 0 ∨ lo + (k : K) * ((1 - f) * len) < y) ∧ (k + 1 = n ∨ y < lo + (k : K) * ((1 - f) * len) + len) := by
        apply exists_interval (fun k : Nat => k = 0 ∨ lo + (k : K) * ((1 - f) * len) < y)
          (fun k : Nat => k + 1 = n ∨ y < lo + (k : K) * ((1 - f) * len) + len) n hn (Or.inl rfl) (Or.inl (by omega))
        intro k hk hL
        push Not at hL
        right
        have hlp : 0 < len := by
          rcases hd with h | h
          · exact hlenpos h
          · omega
        have h2 := hL.2
        push_cast at h2
        have : 0 < f * len := mul_pos hf0 hlp
        nlinarith
      obtain ⟨k, hk, h1, h2⟩ := hcov
      refine ⟨_, List.mem_of_getElem? (hget k hk), ?_, ?_⟩
      · intro l hl
        simp only at hl
        split at hl
        · cases hl
        · cases hl
          rcases h1 with h | h
          · contradiction
          · exact h
      · intro r hr
        simp only at hr
        split at hr
        · cases hr
        · cases hr
          rcases h2 with h | h
          · contradiction
          · exact h
    · intro k I J r l hI hJ hr hl
      have hk := hgetlt _ _ hI
      have hk1 := hgetlt _ _ hJ
      rw [hget k hk] at hI; cases hI
      rw [hget (k + 1) hk1] at hJ; cases hJ
      simp only at hr hl
      rw [if_neg (by omega)] at hr hl
      cases hr; cases hl
      push_cast
      ring
    · rintro hf i j k I J L hij hjk hI hJ hL y ⟨hyI, -, hyL⟩
      have hk := hgetlt _ _ hL
      rw [hget i (by omega)] at hI; cases hI
      rw [hget k hk] at hL; cases hL
      have h1 := hyI.2 (lo + i * ((1 - f) * len) + len) (by simp only; rw [if_neg (by omega)])
      have h2 := hyL.1 (lo + k * ((1 - f) * len)) (by simp only; rw [if_neg (by omega)])
      have hlp : 0 < len := by
        rcases hd with h | h
        · exact hlenpos h
        · omega
      have h3 : (i : K) + 2 ≤ k := by exact_mod_cast (by omega : i + 2 ≤ k)
      have h4 : ((i : K) + 2) * ((1 - f) * len) ≤ k * ((1 - f) * len) :=
        mul_le_mul_of_nonneg_right h3 (mul_nonneg (by linarith) hlp.le)
      have h5 : len ≤ 2 * ((1 - f) * len) := by nlinarith
      linarith

example : fitUniform 3 (1 / 4 : ℚ) [0, 10, 5] = .ok [(none, some 4), (some 3, some 7), (some 6, none)] := by decide +kernel

omit [IsStrictOrderedRing K] in
/-- A single distinct value cannot be covered by several intervals: `ValueError`. -/
theorem C40_single_value_raises (n : Nat) (hn : 1 < n) (f : K) (X : List K) (c : K) (hX : ∀ x ∈ X, x = c) :
    fitUniform n f X = .error .valueError := by
  cases X with
  | nil => rfl
  | cons x t =>
    obtain ⟨m1, -⟩ := foldl_min_spec t x
    obtain ⟨M1, -⟩ := foldl_max_spec t x
    unfold fitUniform
    simp only [hX _ m1, hX _ M1]
    rw [if_pos ⟨trivial, hn⟩]

omit [IsStrictOrderedRing K] in
/-- `transform` after `fit` (both kinds): the sets returned are the cleaned preimages of the fitted intervals. -/
theorem C40_transform_masks (ivs : List (Option K × Option K)) (X : List K) :
    ∃ masks, coverTransform ⟨some ivs⟩ X = .ok masks ∧
      ∀ c, c ∈ masks ↔ c.length = X.length ∧ true ∈ c ∧ ∃ I ∈ ivs, ∀ (i : Nat) x, X[i]? = some x → (c[i]? = some true ↔ InOpen I x) := by
  refine ⟨_, rfl, ?_⟩
  intro c
  rw [(C43_clean_masks _).1 c]
  unfold coverMasks
  rw [List.mem_map]
  constructor
  · rintro ⟨⟨I, hI, rfl⟩, ht⟩
    refine ⟨by simp, ht, I, hI, ?_⟩
    intro i x hx
    rw [List.getElem?_map, hx]
    simp only [Option.map_some, Option.some.injEq]
    exact inIval_iff I x
  · rintro ⟨hlen, ht, I, hI, hiff⟩
    refine ⟨⟨I, hI, ?_⟩, ht⟩
    apply List.ext_getElem (by simp [hlen])
    intro i h1 h2
    have hi : i < X.length := by simpa using h1
    have := hiff i _ (List.getElem?_eq_getElem hi)
    rw [List.getElem?_eq_getElem h2, Option.some.injEq, ← inIval_iff] at this
    rw [List.getElem_map]
    cases h3 : c[i] <;> cases h4 : inIval I X[i] <;> simp_all

end

/-! ### C41 -/

section
variable {K : Type} [Field K] [LinearOrder K] [IsStrictOrderedRing K]

theorem balanced_setup (X : List K) (hX : X ≠ []) (n : Nat) (f : K) :
    ∃ M, (∀ q, q ≤ M → ∃ y ∈ X, rankIn X y = q) ∧ (∀ y ∈ X, rankIn X y ≤ M) ∧ M + 1 = X.dedup.length ∧
      (M = 0 ↔ ∀ x ∈ X, ∀ y ∈ X, x = y) ∧
      balancedLimits n f (denseRank X) = if M = 0 ∧ 1 < n then .error .valueError else .ok (coverLimits (-(1 / 2)) ((M : K) + 1 / 2) n f) := by
  have hmap : denseRank X = X.map (rankIn X) := rfl
  cases hr : denseRank X with
  | nil => rw [hmap] at hr; simp at hr; exact absurd hr hX
  | cons r t =>
    obtain ⟨h1, h2⟩ := foldl_max_spec t r
    rw [← hr, hmap] at h1 h2
    obtain ⟨x, hx, hxr⟩ := List.mem_map.1 h1
    have hle : ∀ y ∈ X, rankIn X y ≤ t.foldl max r := fun y hy => h2 _ (List.mem_map_of_mem hy)
    have hall := exists_rank (X := X) _ x hx hxr
    refine ⟨t.foldl max r, hall, hle, ?_, ?_, ?_⟩
    · rw [← hxr, rankIn_eq_card]
      have : X.dedup.length = X.toFinset.card := by
        rw [← List.toFinset_card_of_nodup (List.nodup_dedup X)]; congr 1; ext; simp
      rw [this]
      have he : X.toFinset.filter (· < x) = X.toFinset.erase x := by
        ext z
        simp only [Finset.mem_filter, List.mem_toFinset, Finset.mem_erase]
        constructor
        · rintro ⟨a, b⟩; exact ⟨b.ne, a⟩
        · rintro ⟨a, b⟩
          refine ⟨b, lt_of_le_of_ne ?_ a⟩
          by_contra hh
          have := rankIn_lt hx (not_le.1 hh)
          have := hle z b
          omega
      rw [he, Finset.card_erase_add_one (by simpa using hx)]
    · constructor
      · intro h0 a ha b hb
        have h3 := hle a ha
        have h4 := hle b hb
        by_contra hne
        rcases lt_or_gt_of_ne hne with h | h
        · have := rankIn_lt ha h; omega
        · have := rankIn_lt hb h; omega
      · intro h
        rw [← hxr, rankIn_eq_card, Finset.card_eq_zero, Finset.filter_eq_empty_iff]
        intro z hz
        rw [h z (by simpa using hz) x hx]; exact lt_irrefl _
    · unfold balancedLimits
      simp only
      have hiff : ((-(1 / 2) : K) = ((t.foldl max r : Nat) : K) + 1 / 2 - 1) ↔ t.foldl max r = 0 := by
        constructor
        · intro h
          have : ((t.foldl max r : Nat) : K) = 0 := by linarith
          exact_mod_cast this
        · intro h; rw [h]; norm_num
      by_cases hc : t.foldl max r = 0 ∧ 1 < n
      · rw [if_pos hc, if_pos ⟨hiff.2 hc.1, hc.2⟩]
      · rw [if_neg hc, if_neg (fun h => hc ⟨hiff.1 h.1, h.2⟩)]

/-- Columns of the two ways of computing balanced masks. -/
inductive MaskRel (Z : List Bool) : List (List Bool) → List (List Bool) → Prop
  | extra {E As Bs} : E.any id = false → MaskRel Z As Bs → MaskRel Z (E :: As) (Z :: Bs)
  | skip {E As Bs} : E.any id = false → MaskRel Z As Bs → MaskRel Z (E :: As) (E :: Bs)
  | stop {T} : MaskRel Z (Z :: T) (Z :: T)

theorem maskRel_clean {Z : List Bool} (hZ : Z.any id = true) {As Bs : List (List Bool)} (h : MaskRel Z As Bs) :
    cleanMasks As = cleanMasks Bs := by
  rw [cleanMasks_eq, cleanMasks_eq]
  have key : ∃ p T, As.filter (fun c => c.any id) = Z :: T ∧ Bs.filter (fun c => c.any id) = List.replicate p Z ++ Z :: T := by
    induction h with
    | extra hE _ ih =>
      obtain ⟨p, T, h1, h2⟩ := ih
      refine ⟨p + 1, T, ?_, ?_⟩
      · rw [List.filter_cons_of_neg (by simp [hE]), h1]
      · rw [List.filter_cons_of_pos (by simpa using hZ), h2]; rfl
    | skip hE _ ih =>
      obtain ⟨p, T, h1, h2⟩ := ih
      refine ⟨p, T, ?_, ?_⟩
      · rw [List.filter_cons_of_neg (by simp [hE]), h1]
      · rw [List.filter_cons_of_neg (by simp [hE]), h2]
    | stop => exact ⟨0, _, List.filter_cons_of_pos (by simpa using hZ), List.filter_cons_of_pos (by simpa using hZ)⟩
  obtain ⟨p, T, h1, h2⟩ := key
  rw [h1, h2, firstOcc_replicate]

variable [FloorRing K]

/-- Length of the rank intervals of a balanced cover of data with `M + 1` distinct values. -/
theorem balanced_len (n : Nat) (hn : 1 ≤ n) (f : K) (hf0 : 0 < f) (hf1 : f < 1) (M : Nat) :
    0 < ilen (-(1 / 2) : K) ((M : K) + 1 / 2) n f ∧
    ilen (-(1 / 2) : K) ((M : K) + 1 / 2) n f * ((n : K) - ((n : K) - 1) * f) = M + 1 := by
  have h := ilen_mul (-(1 / 2) : K) ((M : K) + 1 / 2) n hn f hf0 hf1
  have hd := denom_pos n hn f hf0 hf1
  have hM : (0 : K) ≤ M := Nat.cast_nonneg M
  refine ⟨?_, by linarith⟩
  unfold ilen
  apply div_pos <;> linarith

/-- Data about a balanced fit: the fitted intervals and how they act on the training data. -/
theorem fitBalanced_get (n : Nat) (hn : 1 ≤ n) (f : K) (hf0 : 0 < f) (hf1 : f < 1) (X : List K) (M : Nat)
    (hM : ∀ q, q ≤ M → ∃ y ∈ X, rankIn X y = q) (hM' : ∀ y ∈ X, rankIn X y ≤ M)
    (hlim : balancedLimits n f (denseRank X) = .ok (coverLimits (-(1 / 2)) ((M : K) + 1 / 2) n f)) :
    let len := ilen (-(1 / 2) : K) ((M : K) + 1 / 2) n f
    let lk := fun k : Nat => -(1 / 2) + (k : K) * ((1 - f) * len)
    ∃ ivs : List (Ival K), fitBalanced n f X = .ok ivs ∧ ivs.length = n ∧
      ∀ k, k < n → ivs[k]? = some (valueOfRank X (denseRank X) (leftRank (lk k)), valueOfRank X (denseRank X) (rightRank (lk k + len))) := by
  intro len lk
  obtain ⟨e1, e2, e3⟩ := coverLimits_get (-(1 / 2) : K) ((M : K) + 1 / 2) n f
  obtain ⟨hlp, hlm⟩ := balanced_len n hn f hf0 hf1 M
  unfold fitBalanced
  simp only [hlim, ok_bind, pure_ok]
  refine ⟨_, rfl, ?_⟩
  obtain ⟨o1, o2⟩ := openEnds_get
    ((coverLimits (-(1 / 2) : K) ((M : K) + 1 / 2) n f).1.map fun x => valueOfRank X (denseRank X) (leftRank x))
    ((coverLimits (-(1 / 2) : K) ((M : K) + 1 / 2) n f).2.map fun x => valueOfRank X (denseRank X) (rightRank x)) n hn (by rw [List.length_map, e1]) (by rw [List.length_map, e2])
  refine ⟨o1, fun k hk => ?_⟩
  rw [o2 k _ _ (by rw [List.getElem?_map, (e3 k hk).1]; rfl) (by rw [List.getElem?_map, (e3 k hk).2]; rfl)]
  congr 2
  · split
    · rename_i h0
      subst h0
      have : leftRank (lk 0) = -1 := by
        unfold leftRank
        rw [if_neg]
        simp only [lk]
        push_cast
        rw [not_le]; linarith
      show none = valueOfRank X (denseRank X) (leftRank (lk 0))
      rw [this]
      rcases valueOfRank_spec X (-1) with ⟨v, hv, he, hr⟩ | ⟨he, -⟩
      · omega
      · exact he.symm
    · rfl
  · split
    · rename_i h0
      have hr : lk k + len = M + 1 / 2 := by
        have hk1 : (k : K) = (n : K) - 1 := by
          have : ((k + 1 : Nat) : K) = n := by exact_mod_cast h0
          push_cast at this; linarith
        simp only [lk]
        rw [hk1]
        have : len * ((n : K) - ((n : K) - 1) * f) = M + 1 := hlm
        linarith
      rw [hr]
      have hrk : rightRank ((M : K) + 1 / 2) = M + 1 := by
        have hM0 : (0 : K) ≤ M := Nat.cast_nonneg M
        have hfl : ⌊(M : K) + 1 / 2⌋ = M := by
          rw [Int.floor_eq_iff, Int.cast_natCast]
          have : (0 : K) < 1 / 2 := by norm_num
          have : (1 / 2 : K) < 1 := by norm_num
          constructor <;> linarith
        have htr : truncInt ((M : K) + 1 / 2) = M := by
          unfold truncInt; rw [if_pos (by linarith), hfl]
        unfold rightRank
        rw [htr, if_neg]
        rw [Int.cast_natCast]
        intro h
        have : (0 : K) < 1 / 2 := by norm_num
        linarith
      rw [hrk]
      rcases valueOfRank_spec X (M + 1) with ⟨v, hv, he, hr'⟩ | ⟨he, -⟩
      · have := hM' v hv; omega
      · exact he.symm
    · rfl

theorem maskRel_of {Z : List Bool} : ∀ (k n : Nat) (A B : Nat → List Bool), k < n →
    (∀ j, j < k → (A j).any id = false ∧ (B j = Z ∨ B j = A j)) → A k = Z → (∀ j, k ≤ j → j < n → B j = A j) →
    MaskRel Z ((List.range n).map A) ((List.range n).map B) := by
  intro k
  induction k with
  | zero =>
    intro n A B hn _ hZ hB
    have : (List.range n).map B = (List.range n).map A :=
      List.map_congr_left fun j hj => hB j (by omega) (List.mem_range.1 hj)
    rw [this]
    obtain ⟨m, rfl⟩ : ∃ m, n = m + 1 := ⟨n - 1, by omega⟩
    rw [List.range_succ_eq_map, List.map_cons, hZ]
    exact .stop
  | succ k ih =>
    intro n A B hn hlt hZ hB
    obtain ⟨m, rfl⟩ : ∃ m, n = m + 1 := ⟨n - 1, by omega⟩
    have h := ih m (fun j => A (j + 1)) (fun j => B (j + 1)) (by omega) (fun j hj => hlt (j + 1) (by omega)) hZ
      (fun j h1 h2 => hB (j + 1) (by omega) (by omega))
    rw [List.range_succ_eq_map, List.map_cons, List.map_cons, List.map_map, List.map_map]
    obtain ⟨h1, h2 | h2⟩ := hlt 0 (by omega)
    · rw [h2]; exact .extra h1 h
    · rw [h2]; exact .skip h1 h

omit [IsStrictOrderedRing K] [FloorRing K] in
theorem rankIn_eq_distinctBelow (X : List K) (x : K) : rankIn X x = distinctBelow X x := by
  rw [rankIn_eq_card]
  unfold distinctBelow
  rw [← List.toFinset_card_of_nodup ((List.nodup_dedup X).filter _)]
  congr 1
  ext y; simp

/-- The rank mask number `k`. -/
def rankMask (X : List K) (l len : K) : List Bool :=
  X.map fun x => decide (l < (rankIn X x : K)) && decide ((rankIn X x : K) < l + len)

omit [IsStrictOrderedRing K] [FloorRing K] in
theorem fitTransformBalanced_get (n : Nat) (f : K) (X : List K) (M : Nat)
    (hlim : balancedLimits n f (denseRank X) = .ok (coverLimits (-(1 / 2)) ((M : K) + 1 / 2) n f))
    (hget : ∀ k, k < n → (coverLimits (-(1 / 2)) ((M : K) + 1 / 2) n f).1[k]? = some (-(1 / 2) + k * ((1 - f) * ilen (-(1 / 2)) ((M : K) + 1 / 2) n f)) ∧
      (coverLimits (-(1 / 2)) ((M : K) + 1 / 2) n f).2[k]? =
        some (-(1 / 2) + k * ((1 - f) * ilen (-(1 / 2)) ((M : K) + 1 / 2) n f) + ilen (-(1 / 2)) ((M : K) + 1 / 2) n f))
    (e1 : (coverLimits (-(1 / 2)) ((M : K) + 1 / 2) n f).1.length = n) (e2 : (coverLimits (-(1 / 2)) ((M : K) + 1 / 2) n f).2.length = n) :
    ∃ lims, fitTransformBalanced n f X = .ok ((List.range n).map fun (k : Nat) =>
      rankMask X (-(1 / 2) + k * ((1 - f) * ilen (-(1 / 2)) ((M : K) + 1 / 2) n f)) (ilen (-(1 / 2)) ((M : K) + 1 / 2) n f), lims) := by
  unfold fitTransformBalanced
  simp only [hlim, ok_bind, pure_ok]
  refine ⟨(coverLimits (-(1 / 2)) ((M : K) + 1 / 2) n f), ?_⟩
  congr 2
  · apply List.ext_getElem?
    intro k
    by_cases hk : k < n
    · have hz : ((coverLimits (-(1 / 2)) ((M : K) + 1 / 2) n f).1.zip (coverLimits (-(1 / 2)) ((M : K) + 1 / 2) n f).2)[k]? =
          some (-(1 / 2) + k * ((1 - f) * ilen (-(1 / 2)) ((M : K) + 1 / 2) n f),
            -(1 / 2) + k * ((1 - f) * ilen (-(1 / 2)) ((M : K) + 1 / 2) n f) + ilen (-(1 / 2)) ((M : K) + 1 / 2) n f) := by
        rw [List.getElem?_zip_eq_some]; exact hget k hk
      rw [List.getElem?_map, hz, List.getElem?_map, List.getElem?_range hk]
      simp only [Option.map_some, Option.some.injEq]
      unfold rankMask
      rw [show denseRank X = X.map (rankIn X) from rfl, List.map_map]
      rfl
    · rw [List.getElem?_eq_none (by simp only [List.length_map, List.length_zip, e1, e2]; omega), List.getElem?_eq_none (by simp; omega)]

/-- The two computations of balanced masks agree after cleaning; data version used below. -/
theorem balanced_masks_agree (n : Nat) (hn : 1 ≤ n) (f : K) (hf0 : 0 < f) (hf1 : f < 1) (X : List K) (hX : X ≠ [])
    (hd : n = 1 ∨ ∃ x ∈ X, ∃ y ∈ X, x ≠ y) :
    ∃ (ivs : List (Ival K)) (lims : List K × List K) (len : K), 0 < len ∧ len * ((n : K) - ((n : K) - 1) * f) = X.dedup.length ∧
      fitBalanced n f X = .ok ivs ∧
      fitTransformBalanced n f X = .ok ((List.range n).map fun (k : Nat) => rankMask X (-(1 / 2) + k * ((1 - f) * len)) len, lims) ∧
      cleanMasks (coverMasks ivs X) = cleanMasks ((List.range n).map fun (k : Nat) => rankMask X (-(1 / 2) + k * ((1 - f) * len)) len) ∧
      (∀ x ∈ X, ∃ k : Nat, k < n ∧ -(1 / 2) + k * ((1 - f) * len) < (rankIn X x : K) ∧ (rankIn X x : K) < -(1 / 2) + k * ((1 - f) * len) + len) ∧
      (∀ x, ∃ I ∈ ivs, InOpen I x) := by
  obtain ⟨M, hM, hM', hMd, hM0, hbl⟩ := balanced_setup X hX n f
  have hnot : ¬ (M = 0 ∧ 1 < n) := by
    rintro ⟨h0, h1⟩
    rcases hd with h | ⟨x, hx, y, hy, hne⟩
    · omega
    · exact hne (hM0.1 h0 x hx y hy)
  rw [if_neg hnot] at hbl
  obtain ⟨hlp, hlm⟩ := balanced_len n hn f hf0 hf1 M
  obtain ⟨ivs, hfit, hivlen, hiv⟩ := fitBalanced_get n hn f hf0 hf1 X M hM hM' hbl
  obtain ⟨e1, e2, e3⟩ := coverLimits_get (-(1 / 2) : K) ((M : K) + 1 / 2) n f
  obtain ⟨lims, hft⟩ := fitTransformBalanced_get n f X M hbl e3 e1 e2
  generalize ilen (-(1 / 2) : K) ((M : K) + 1 / 2) n f = len at *
  have hM0' : (0 : K) ≤ M := Nat.cast_nonneg M
  have hpos : (0 : K) < (1 - f) * len := mul_pos (by linarith) hlp
  have hflen : 0 < f * len := mul_pos hf0 hlp
  -- the last right limit
  have hlast : ∀ k : Nat, k + 1 = n → -(1 / 2) + (k : K) * ((1 - f) * len) + len = M + 1 / 2 := by
    intro k hk
    have hk1 : (k : K) = (n : K) - 1 := by
      have : ((k + 1 : Nat) : K) = n := by exact_mod_cast hk
      push_cast at this; linarith
    rw [hk1]; linarith
  have hmono : ∀ j k : Nat, j ≤ k → (j : K) * ((1 - f) * len) ≤ k * ((1 - f) * len) := fun j k h =>
    mul_le_mul_of_nonneg_right (by exact_mod_cast h) hpos.le
  have hrle : ∀ k, k < n → -(1 / 2) + (k : K) * ((1 - f) * len) + len ≤ M + 1 / 2 := by
    intro k hk
    have h1 := hlast (n - 1) (by omega)
    have h2 := hmono k (n - 1) (by omega)
    linarith
  have hBcol : coverMasks ivs X = (List.range n).map fun (k : Nat) => X.map fun x =>
      inIval (valueOfRank X (denseRank X) (leftRank (-(1 / 2) + (k : K) * ((1 - f) * len))),
        valueOfRank X (denseRank X) (rightRank (-(1 / 2) + (k : K) * ((1 - f) * len) + len))) x := by
    unfold coverMasks
    apply List.ext_getElem?
    intro k
    by_cases hk : k < n
    · rw [List.getElem?_map, hiv k hk, List.getElem?_map, List.getElem?_range hk]; rfl
    · rw [List.getElem?_eq_none (by simp only [List.length_map, hivlen]; omega), List.getElem?_eq_none (by simp; omega)]
  -- agreement of the columns with non-negative right limit
  have hagree : ∀ k, k < n → 0 ≤ -(1 / 2) + (k : K) * ((1 - f) * len) + len →
      (X.map fun x => inIval (valueOfRank X (denseRank X) (leftRank (-(1 / 2) + (k : K) * ((1 - f) * len))),
        valueOfRank X (denseRank X) (rightRank (-(1 / 2) + (k : K) * ((1 - f) * len) + len))) x) =
      rankMask X (-(1 / 2) + (k : K) * ((1 - f) * len)) len := by
    intro k hk h0
    unfold rankMask
    apply List.map_congr_left
    intro x hx
    have h1 := left_test hM (l := -(1 / 2) + (k : K) * ((1 - f) * len)) (by have := hrle k hk; linarith) hx
    have h2 := right_test hM hM' h0 hx
    rw [Bool.eq_iff_iff, inIval_iff, Bool.and_eq_true, decide_eq_true_eq, decide_eq_true_eq, ← h1, ← h2]
    rfl
  refine ⟨ivs, lims, len, hlp, ?_, hfit, hft, ?_, ?_, ?_⟩
  · rw [hlm, ← hMd]; push_cast; rfl
  · rw [hBcol]
    by_cases hsmall : 0 ≤ -(1 / 2) + ((0 : Nat) : K) * ((1 - f) * len) + len
    · congr 1
      apply List.map_congr_left
      intro k hk
      apply hagree k (List.mem_range.1 hk)
      have := hmono 0 k (by omega)
      push_cast at hsmall this
      linarith
    · have hlen2 : len < 1 / 2 := by
        push_cast at hsmall; linarith
      have hMpos : 1 ≤ M := by
        by_contra hlt
        have hM00 : M = 0 := by omega
        have hn1 : n = 1 := by
          by_contra hne
          exact hnot ⟨hM00, by omega⟩
        rw [hn1, hM00] at hlm
        push_cast at hlm
        linarith
      -- first interval with positive right limit
      have hex : ∃ k : Nat, 0 < -(1 / 2) + (k : K) * ((1 - f) * len) + len :=
        ⟨n - 1, by rw [hlast (n - 1) (by omega)]; linarith⟩
      classical
      let k := Nat.find hex
      have hk := Nat.find_spec hex
      have hkmin : ∀ j : Nat, j < k → -(1 / 2) + (j : K) * ((1 - f) * len) + len ≤ 0 := fun j hj => not_lt.1 (Nat.find_min hex hj)
      have hkn : k < n := by
        have : k ≤ n - 1 := Nat.find_min' hex (by rw [hlast (n - 1) (by omega)]; linarith)
        omega
      change 0 < -(1 / 2) + (k : K) * ((1 - f) * len) + len at hk
      have hk0 : k ≠ 0 := by
        intro h
        rw [h] at hk
        exact hsmall hk.le
      have hprev := hkmin (k - 1) (by omega)
      have hcast : ((k - 1 : Nat) : K) = k - 1 := by
        rw [Nat.cast_sub (by omega)]; simp
      rw [hcast] at hprev
      have hl : -(1 / 2) + (k : K) * ((1 - f) * len) < 0 := by linarith
      have hr : -(1 / 2) + (k : K) * ((1 - f) * len) + len < 1 := by linarith
      have hempty : ∀ j : Nat, j < k → (rankMask X (-(1 / 2) + (j : K) * ((1 - f) * len)) len).any id = false := by
        intro j hj
        unfold rankMask
        rw [List.any_eq_false]
        intro b hb
        obtain ⟨x, _, rfl⟩ := List.mem_map.1 hb
        have h1 := hkmin j hj
        have h2 : (0 : K) ≤ (rankIn X x : K) := Nat.cast_nonneg _
        simp only [id, Bool.and_eq_true, decide_eq_true_eq]
        rintro ⟨-, h3⟩; linarith
      have hZk : rankMask X (-(1 / 2) + (k : K) * ((1 - f) * len)) len = X.map fun x => decide (rankIn X x = 0) := by
        unfold rankMask
        apply List.map_congr_left
        intro x _
        rw [Bool.eq_iff_iff, Bool.and_eq_true, decide_eq_true_eq, decide_eq_true_eq, decide_eq_true_eq]
        constructor
        · rintro ⟨-, h2⟩
          have : (rankIn X x : K) < 1 := by linarith
          have : rankIn X x < 1 := by exact_mod_cast this
          omega
        · intro h; rw [h]; push_cast; exact ⟨hl, hk⟩
      have hZany : (X.map fun x => decide (rankIn X x = 0)).any id = true := by
        obtain ⟨y, hy, hyr⟩ := hM 0 (by omega)
        rw [List.any_eq_true]
        exact ⟨true, List.mem_map.2 ⟨y, hy, by simp [hyr]⟩, rfl⟩
      refine (maskRel_clean hZany (maskRel_of k n _ _ hkn (fun j hj => ⟨hempty j hj, ?_⟩) hZk (fun j h1 h2 => ?_))).symm
      · rcases lt_or_eq_of_le (hkmin j hj) with h | h
        · left
          apply List.map_congr_left
          intro x hx
          have h0 := hmono 0 j (by omega)
          push_cast at h0
          have h1 := left_test hM (l := -(1 / 2) + (j : K) * ((1 - f) * len)) (by linarith) hx
          have h2 := right_test_neg hM hMpos h (by linarith) hx
          rw [Bool.eq_iff_iff, inIval_iff, decide_eq_true_eq, ← h2]
          unfold InOpen
          constructor
          · exact fun h => h.2
          · intro h3
            refine ⟨h1.2 ?_, h3⟩
            have : (0 : K) ≤ (rankIn X x : K) := Nat.cast_nonneg _
            linarith
        · right
          exact hagree j (by omega) h.ge
      · apply hagree j h2
        have := hmono k j h1
        linarith
  · intro x hx
    have hr : (rankIn X x : K) ≤ M := by exact_mod_cast hM' x hx
    apply exists_interval (fun k : Nat => -(1 / 2) + (k : K) * ((1 - f) * len) < (rankIn X x : K))
      (fun k : Nat => (rankIn X x : K) < -(1 / 2) + (k : K) * ((1 - f) * len) + len) n hn
    · push_cast
      have : (0 : K) ≤ (rankIn X x : K) := Nat.cast_nonneg _
      linarith
    · rw [hlast (n - 1) (by omega)]; linarith
    · intro k _ hL
      push Not at hL
      push_cast at hL
      linarith
  · intro x
    have hint : ∃ k, k < n ∧ (∀ v, valueOfRank X (denseRank X) (leftRank (-(1 / 2) + (k : K) * ((1 - f) * len))) = some v → v < x) ∧
        (∀ v, valueOfRank X (denseRank X) (rightRank (-(1 / 2) + (k : K) * ((1 - f) * len) + len)) = some v → x < v) := by
      apply exists_interval (fun k : Nat => ∀ v, valueOfRank X (denseRank X) (leftRank (-(1 / 2) + (k : K) * ((1 - f) * len))) = some v → v < x)
        (fun k : Nat => ∀ v, valueOfRank X (denseRank X) (rightRank (-(1 / 2) + (k : K) * ((1 - f) * len) + len)) = some v → x < v) n hn
      · intro v hv
        exfalso
        have hneg : leftRank (-(1 / 2) + ((0 : Nat) : K) * ((1 - f) * len)) = -1 := by
          unfold leftRank
          rw [if_neg]; push_cast; rw [not_le]; linarith
        rw [hneg] at hv
        rcases valueOfRank_spec X (-1) with ⟨w, hw, he, hr⟩ | ⟨he, -⟩
        · omega
        · rw [he] at hv; cases hv
      · intro v hv
        exfalso
        rcases valueOfRank_spec X (rightRank (-(1 / 2) + ((n - 1 : Nat) : K) * ((1 - f) * len) + len)) with ⟨w, hw, he, hr⟩ | ⟨he, -⟩
        · have h1 := right_test hM hM' (r := -(1 / 2) + ((n - 1 : Nat) : K) * ((1 - f) * len) + len)
            (by rw [hlast (n - 1) (by omega)]; linarith) hw
          have h2 : (rankIn X w : K) < -(1 / 2) + ((n - 1 : Nat) : K) * ((1 - f) * len) + len := by
            rw [hlast (n - 1) (by omega)]
            have : (rankIn X w : K) ≤ M := by exact_mod_cast hM' w hw
            linarith
          exact lt_irrefl _ (h1.2 h2 w he)
        · rw [he] at hv; cases hv
      · intro k hk hL v hv
        push Not at hL
        obtain ⟨u, hu, hux⟩ := hL
        refine lt_of_le_of_lt hux ?_
        rcases valueOfRank_spec X (leftRank (-(1 / 2) + ((k + 1 : Nat) : K) * ((1 - f) * len))) with ⟨u', hu', heu, hru⟩ | ⟨heu, -⟩
        · rw [heu] at hu; cases hu
          rcases valueOfRank_spec X (rightRank (-(1 / 2) + (k : K) * ((1 - f) * len) + len)) with ⟨v', hv', hev, hrv⟩ | ⟨hev, -⟩
          · rw [hev] at hv; cases hv
            rw [← rankIn_lt_iff hu' hv']
            -- `u` has rank ⌊l⌋ ≤ l < r
            have hl0 : 0 ≤ -(1 / 2) + ((k + 1 : Nat) : K) * ((1 - f) * len) := by
              by_contra hneg
              unfold leftRank at hru
              rw [if_neg hneg] at hru
              omega
            have hlu : (rankIn X u : K) ≤ -(1 / 2) + ((k + 1 : Nat) : K) * ((1 - f) * len) := by
              unfold leftRank truncInt at hru
              rw [if_pos hl0, if_pos hl0] at hru
              have h := Int.floor_le (-(1 / 2) + ((k + 1 : Nat) : K) * ((1 - f) * len))
              rw [← hru, Int.cast_natCast] at h
              exact h
            push_cast at hlu hl0
            have hr0 : 0 ≤ -(1 / 2) + (k : K) * ((1 - f) * len) + len := by linarith
            have h1 := (right_test hM hM' hr0 hu').2 (by linarith)
            have h2 := h1 _ hev
            exact (rankIn_lt_iff hu' hv').2 h2
          · rw [hev] at hv; cases hv
        · rw [heu] at hu; cases hu
    obtain ⟨k, hk, h1, h2⟩ := hint
    exact ⟨_, List.mem_of_getElem? (hiv k hk), h1, h2⟩

/-- **C41.** Balanced covers: `fit` then `transform` on the training data gives the same masks as `fit_transform`. These are the distinct non-empty
sets among the `n` sets of samples whose rank (number of distinct smaller values) lies in one of `n` equally long intervals, each the fraction `f` of its
length over its neighbour, together spanning `(-1/2, D - 1/2)` where `D` is the number of distinct values. Every sample is in a set, and the fitted
intervals cover the whole line (so every sample of any data transformed later is in a set as well). -/
theorem C41_balanced_cover (n : Nat) (hn : 1 ≤ n) (f : K) (hf0 : 0 < f) (hf1 : f < 1) (s : CoverState K) (X : List K) (hX : X ≠ [])
    (hd : n = 1 ∨ ∃ x ∈ X, ∃ y ∈ X, x ≠ y) :
    ∃ (ivs : List (Option K × Option K)) (masks : List (List Bool)) (len : K),
      coverFit ⟨true, n, f⟩ s X = (⟨some ivs⟩, .ok ()) ∧ coverTransform ⟨some ivs⟩ X = .ok masks ∧
      (coverFitTransform ⟨true, n, f⟩ s X).2 = .ok masks ∧
      len * ((n : K) - ((n : K) - 1) * f) = X.dedup.length ∧
      (∀ c, c ∈ masks ↔ true ∈ c ∧ ∃ k : Nat, k < n ∧ c = X.map fun x =>
        decide (-(1 / 2) + k * ((1 - f) * len) < (distinctBelow X x : K) ∧ (distinctBelow X x : K) < -(1 / 2) + k * ((1 - f) * len) + len)) ∧
      (∀ i, i < X.length → ∃ c ∈ masks, c[i]? = some true) ∧
      ∀ x, ∃ I ∈ ivs, InOpen I x := by
  obtain ⟨ivs, lims, len, -, hlen, hfit, hft, hag, hcov, hline⟩ := balanced_masks_agree n hn f hf0 hf1 X hX hd
  refine ⟨ivs, cleanMasks (coverMasks ivs X), len, ?_, rfl, ?_, hlen, ?_, ?_, hline⟩
  · simp [coverFit, coverFitLimits, hfit]
  · simp [coverFitTransform, hft, hag]
  · intro c
    rw [hag, (C43_clean_masks _).1 c, and_comm, List.mem_map]
    simp only [List.mem_range, rankMask, rankIn_eq_distinctBelow, Bool.decide_and]
    constructor
    · rintro ⟨h, k, hk, rfl⟩; exact ⟨h, k, hk, rfl⟩
    · rintro ⟨h, k, hk, rfl⟩; exact ⟨h, k, hk, rfl⟩
  · intro i hi
    rw [(C43_clean_masks _).2.2.2 i]
    obtain ⟨I, hI, hIn⟩ := hline X[i]
    exact ⟨_, List.mem_map.2 ⟨I, hI, rfl⟩, by
      rw [List.getElem?_map, List.getElem?_eq_getElem hi, Option.map_some, (inIval_iff I X[i]).2 hIn]⟩

omit [IsStrictOrderedRing K] in
/-- One distinct value and several intervals: both ways raise `ValueError`. -/
theorem C41_single_value_raises [IsStrictOrderedRing K] (n : Nat) (hn : 1 < n) (f : K) (s : CoverState K) (X : List K) (c : K) (hX : ∀ x ∈ X, x = c) :
    coverFit ⟨true, n, f⟩ s X = (s, .error .valueError) ∧ coverFitTransform ⟨true, n, f⟩ s X = (s, .error .valueError) := by
  have hlim : balancedLimits n f (denseRank X) = .error .valueError := by
    cases X with
    | nil => rfl
    | cons x t =>
      obtain ⟨M, -, -, -, hM0, hbl⟩ := balanced_setup (x :: t) (by simp) n f
      rw [hbl, if_pos ⟨hM0.2 fun a ha b hb => (hX a ha).trans (hX b hb).symm, hn⟩]
  have e1 : fitBalanced n f X = .error .valueError := by
    unfold fitBalanced; simp only [hlim]; rfl
  have e2 : fitTransformBalanced n f X = .error .valueError := by
    unfold fitTransformBalanced; simp only [hlim]; rfl
  simp [coverFit, coverFitLimits, coverFitTransform, e1, e2]

example : coverFitTransform ⟨true, 6, (1 / 10 : ℚ)⟩ ⟨none⟩ [3, 1, 3, 2] =
    (⟨none⟩, .ok [[false, true, false, false], [false, false, false, true], [true, false, true, false]]) ∧
    coverTransform (coverFit ⟨true, 6, (1 / 10 : ℚ)⟩ ⟨none⟩ [3, 1, 3, 2]).1 [3, 1, 3, 2] =
      .ok [[false, true, false, false], [false, false, false, true], [true, false, true, false]] := by
  constructor <;> decide +kernel

/-! ### C42 -/

omit [Field K] [LinearOrder K] [IsStrictOrderedRing K] [FloorRing K] in
/-- A machine in which a successful call determines the state and a failing call leaves it alone is in the state of its last successful call. -/
theorem foldl_last_ok {S Op : Type} (step : S → Op → S) (ok : Op → Bool) (h1 : ∀ s s' op, ok op = true → step s op = step s' op)
    (h2 : ∀ s op, ok op = false → step s op = s) (s0 : S) (ops : List Op) :
    ops.foldl step s0 = match ops.reverse.find? ok with | none => s0 | some op => step s0 op := by
  have key : ∀ r : List Op, r.reverse.foldl step s0 = match r.find? ok with | none => s0 | some op => step s0 op := by
    intro r
    induction r with
    | nil => rfl
    | cons a t ih =>
      rw [List.reverse_cons, List.foldl_append, List.find?_cons]
      cases ha : ok a with
      | true => exact h1 _ _ _ ha
      | false =>
        simp only [List.foldl_cons, List.foldl_nil]
        rw [h2 _ _ ha, ih]
  have := key ops.reverse
  rwa [List.reverse_reverse] at this

/-- Does this call return normally? (It does not depend on the state.) -/
def coverCallOk (p : CoverParams K) : CoverOp (List K) → Bool
  | .fit X => (coverFit p ⟨none⟩ X).2.isOk
  | .fitTransform X => (coverFitTransform p ⟨none⟩ X).2.isOk

/-- The training data of a call. -/
def CoverOp.data {D : Type} : CoverOp D → D
  | .fit X => X
  | .fitTransform X => X

omit [IsStrictOrderedRing K] in
/-- **C42**, for uniform one-dimensional covers, and for balanced ones in histories made of `fit` calls only: `transform` raises `NotFittedError`
if no call succeeded, and otherwise does what a fresh cover fitted on the data of the latest successful call would do.

Missing: histories of balanced covers containing `fit_transform`, for which the claim is false (`C42_refuted_stale_limits`). -/
theorem C42_one_dimensional_partial (p : CoverParams K) (ops : List (CoverOp (List K)))
    (hops : p.balanced = true → ∀ op ∈ ops, ∃ X, op = .fit X) (Y : List K) :
    coverTransform (ops.foldl (coverStep p) ⟨none⟩) Y =
      match ops.reverse.find? (coverCallOk p) with
      | none => .error .notFitted
      | some op => coverTransform (coverFit p ⟨none⟩ (CoverOp.data op)).1 Y := by
  -- replace every call by `fit` on the same data
  have hstep : ∀ s, ∀ op ∈ ops, coverStep p s op = (coverFit p s (CoverOp.data op)).1 := by
    intro s op hop
    cases op with
    | fit X => rfl
    | fitTransform X =>
      cases hb : p.balanced with
      | true => obtain ⟨X', hX'⟩ := hops hb _ hop; cases hX'
      | false =>
        simp only [coverStep, coverFitTransform, hb, coverFit, coverFitLimits, CoverOp.data]
        cases fitUniform p.n p.f X <;> rfl
  have hok : ∀ op ∈ ops, coverCallOk p op = (coverFit p ⟨none⟩ (CoverOp.data op)).2.isOk := by
    intro op hop
    cases op with
    | fit X => rfl
    | fitTransform X =>
      cases hb : p.balanced with
      | true => obtain ⟨X', hX'⟩ := hops hb _ hop; cases hX'
      | false =>
        simp only [coverCallOk, coverFitTransform, hb, coverFit, coverFitLimits, CoverOp.data]
        cases fitUniform p.n p.f X <;> rfl
  have hfold : ops.foldl (coverStep p) ⟨none⟩ = ops.foldl (fun s op => (coverFit p s (CoverOp.data op)).1) ⟨none⟩ := by
    have : ∀ (l : List (CoverOp (List K))) s, (∀ op ∈ l, op ∈ ops) →
        l.foldl (coverStep p) s = l.foldl (fun s op => (coverFit p s (CoverOp.data op)).1) s := by
      intro l
      induction l with
      | nil => intro s _; rfl
      | cons a t ih =>
        intro s hl
        rw [List.foldl_cons, List.foldl_cons, hstep s a (hl a (by simp)), ih _ fun op hop => hl op (by simp [hop])]
    exact this ops _ fun _ h => h
  have hfind : ops.reverse.find? (coverCallOk p) = ops.reverse.find? fun op => (coverFit p ⟨none⟩ (CoverOp.data op)).2.isOk := by
    have : ∀ l : List (CoverOp (List K)), (∀ op ∈ l, op ∈ ops) → l.find? (coverCallOk p) = l.find? fun op => (coverFit p ⟨none⟩ (CoverOp.data op)).2.isOk := by
      intro l
      induction l with
      | nil => intro _; rfl
      | cons a t ih =>
        intro hl
        rw [List.find?_cons, List.find?_cons, hok a (hl a (by simp)), ih fun op hop => hl op (by simp [hop])]
    exact this _ fun op hop => by simpa using hop
  rw [hfold, hfind, foldl_last_ok (fun s op => (coverFit p s (CoverOp.data op)).1) (fun op => (coverFit p ⟨none⟩ (CoverOp.data op)).2.isOk)]
  · cases ops.reverse.find? fun op => (coverFit p ⟨none⟩ (CoverOp.data op)).2.isOk <;> rfl
  · intro s s' op h
    unfold coverFit at h ⊢
    cases hc : coverFitLimits p (CoverOp.data op) with
    | ok v => rfl
    | error e => rw [hc] at h; cases h
  · intro s op h
    unfold coverFit at h ⊢
    cases hc : coverFitLimits p (CoverOp.data op) with
    | ok v => rw [hc] at h; cases h
    | error e => rfl

/-- **C42 is false** for balanced one-dimensional covers: after `fit` on one data set and `fit_transform` on another, `transform` neither raises nor
uses the data of the latest call, but the limits of the older one. -/
theorem C42_refuted_stale_limits :
    let p : CoverParams ℚ := ⟨true, 2, 1 / 10⟩
    let s := [CoverOp.fit [0, 1], .fitTransform [10, 11]].foldl (coverStep p) ⟨none⟩
    (∀ op ∈ [CoverOp.fit [0, 1], .fitTransform [10, 11]], coverCallOk p op = true) ∧
    coverTransform s [10, 11] = coverTransform (coverFit p ⟨none⟩ [0, 1]).1 [10, 11] ∧
    coverTransform s [10, 11] ≠ coverTransform (coverFit p ⟨none⟩ [10, 11]).1 [10, 11] ∧
    coverTransform s [10, 11] ≠ .error .notFitted := by
  decide +kernel

/-- Does this call on a `CubicalCover` return normally? -/
def cubicalCallOk (p : CoverParams K) : CoverOp (Nat × List (List K)) → Bool
  | .fit X => (cubicalFit p ⟨none⟩ X.2).2.isOk
  | .fitTransform X => (cubicalFitTransform p ⟨none⟩ X.1 X.2).2.isOk

omit [IsStrictOrderedRing K] in
theorem cubicalMasks_ok (m : Nat) (ls : List (List (Ival K))) (Y : List (List K)) (h : Y.length = ls.length) :
    cubicalMasks m (ls.map fun ivs => ⟨some ivs⟩) Y = .ok (combineCovers m (List.zipWith (fun y ivs => coverMasks ivs y) Y ls)) := by
  unfold cubicalMasks
  have : (Y.zip (ls.map fun ivs => (⟨some ivs⟩ : CoverState K))).mapM (fun p => coverRaw p.2 p.1) = .ok (List.zipWith (fun y ivs => coverMasks ivs y) Y ls) := by
    rw [mapM_ok_iff]
    induction Y generalizing ls with
    | nil => cases ls with
      | nil => exact .nil
      | cons _ _ => simp at h
    | cons y Y ih => cases ls with
      | nil => simp at h
      | cons l ls => exact .cons rfl (ih ls (by simpa using h))
  rw [this]; rfl

omit [IsStrictOrderedRing K] in
theorem mapM_length {α β : Type} {g : α → PyM β} {l : List α} {r : List β} (h : l.mapM g = .ok r) : l.length = r.length :=
  (mapM_ok_iff.1 h).length_eq

omit [IsStrictOrderedRing K] in
/-- **C42** for `CubicalCover` holds for every history of calls: `transform` does exactly what it would do on a fresh instance on which only the
latest successful call had been made (for `kind='balanced'` and `fit_transform` that is to raise `NotFittedError`). -/
theorem C42_cubical (p : CoverParams K) (ops : List (CoverOp (Nat × List (List K)))) (m : Nat) (Y : List (List K)) :
    (match ops.reverse.find? (cubicalCallOk p) with
    | none => cubicalTransform p (ops.foldl (cubicalStep p) ⟨none⟩) m Y = .error .notFitted
    | some (.fit X) => cubicalTransform p (ops.foldl (cubicalStep p) ⟨none⟩) m Y = cubicalTransform p (cubicalFit p ⟨none⟩ X.2).1 m Y
    | some (.fitTransform X) =>
      if p.balanced then X.2 ≠ [] → Y.length = X.2.length → cubicalTransform p (ops.foldl (cubicalStep p) ⟨none⟩) m Y = .error .notFitted
      else cubicalTransform p (ops.foldl (cubicalStep p) ⟨none⟩) m Y = cubicalTransform p (cubicalFit p ⟨none⟩ X.2).1 m Y) := by
  rw [foldl_last_ok (cubicalStep p) (cubicalCallOk p)]
  · cases hf : ops.reverse.find? (cubicalCallOk p) with
    | none => rfl
    | some op =>
      have hokop := List.find?_some hf
      cases op with
      | fit X => rfl
      | fitTransform X =>
        simp only [cubicalStep]
        cases hb : p.balanced with
        | true =>
          simp only [if_true]
          intro hX hY
          simp only [cubicalCallOk, cubicalFitTransform, hb, if_true] at hokop ⊢
          cases hm : X.2.mapM (fun x => (fitTransformBalanced p.n p.f x).map Prod.fst) with
          | error e => rw [hm] at hokop; cases hokop
          | ok covers =>
            simp only
            unfold cubicalTransform
            simp only [List.length_map, hY, ne_eq, not_true_eq_false, if_false]
            cases hX2 : X.2 with
            | nil => exact absurd hX2 hX
            | cons a t => simp [hb]
        | false =>
          simp only [Bool.false_eq_true, if_false, cubicalFitTransform, cubicalFit, hb]
          cases X.2.mapM (coverFitLimits p) <;> rfl
  · intro s s' op h
    cases op with
    | fit X =>
      simp only [cubicalStep, cubicalFit, cubicalCallOk] at h ⊢
      cases hc : X.2.mapM (coverFitLimits p) with
      | ok v => rfl
      | error e => rw [hc] at h; cases h
    | fitTransform X =>
      simp only [cubicalStep, cubicalFitTransform, cubicalCallOk] at h ⊢
      split
      · rename_i hb
        rw [if_pos hb] at h
        cases hc : X.2.mapM (fun x => (fitTransformBalanced p.n p.f x).map Prod.fst) with
        | ok v => rfl
        | error e => rw [hc] at h; cases h
      · rename_i hb
        rw [if_neg hb] at h
        cases hc : X.2.mapM (coverFitLimits p) with
        | ok v => rfl
        | error e => rw [hc] at h; cases h
  · intro s op h
    cases op with
    | fit X =>
      simp only [cubicalStep, cubicalFit, cubicalCallOk] at h ⊢
      cases hc : X.2.mapM (coverFitLimits p) with
      | ok v => rw [hc] at h; cases h
      | error e => rfl
    | fitTransform X =>
      simp only [cubicalStep, cubicalFitTransform, cubicalCallOk] at h ⊢
      split
      · rename_i hb
        rw [if_pos hb] at h
        cases hc : X.2.mapM (fun x => (fitTransformBalanced p.n p.f x).map Prod.fst) with
        | ok v => rw [hc] at h; cases h
        | error e => rfl
      · rename_i hb
        rw [if_neg hb] at h
        cases hc : X.2.mapM (coverFitLimits p) with
        | ok v =>
          rw [hc] at h
          simp only [cubicalMasks_ok X.1 v X.2 (mapM_length hc)] at h
          cases h
        | error e => rfl

example : cubicalTransform ⟨true, 2, (1 / 10 : ℚ)⟩ ([CoverOp.fit (2, [[0, 1]]), .fitTransform (2, [[10, 11]])].foldl (cubicalStep ⟨true, 2, 1 / 10⟩) ⟨none⟩) 2 [[10, 11]] =
    .error .notFitted := by decide +kernel

/-! ### C44 -/

omit [IsStrictOrderedRing K] in
/-- **C44.** Whatever intervals `ivss` (one list per feature) a `CubicalCover` was fitted with, `transform` of `m` samples with coordinates `Y` returns
exactly the distinct non-empty sets of samples that form a box: a choice of one interval per feature, a sample being a member iff each of its
coordinates is in the interval chosen for that feature. If the intervals of each feature cover the line, each sample is in a set. -/
theorem C44_boxes (p : CoverParams K) (ivss : List (List (Option K × Option K))) (m : Nat) (Y : List (List K)) (hne : ivss ≠ [])
    (hY : Y.length = ivss.length) (hm : ∀ y ∈ Y, y.length = m) :
    ∃ masks, cubicalTransform p ⟨some (ivss.map fun ivs => ⟨some ivs⟩)⟩ m Y = .ok masks ∧ masks.Nodup ∧
      (∀ c, c ∈ masks ↔ c.length = m ∧ true ∈ c ∧ ∃ box, List.Forall₂ (fun I ivs => I ∈ ivs) box ivss ∧
        ∀ i, i < m → (c[i]? = some true ↔ ∀ (j : Nat) I y x, box[j]? = some I → Y[j]? = some y → y[i]? = some x → InOpen I x)) ∧
      ((∀ ivs ∈ ivss, ∀ x, ∃ I ∈ ivs, InOpen I x) → ∀ i, i < m → ∃ c ∈ masks, c[i]? = some true) := by
  have htr : cubicalTransform p ⟨some (ivss.map fun ivs => ⟨some ivs⟩)⟩ m Y = .ok (combineCovers m (List.zipWith (fun y ivs => coverMasks ivs y) Y ivss)) := by
    unfold cubicalTransform
    simp only [List.length_map, hY, ne_eq, not_true_eq_false, if_false]
    rw [← cubicalMasks_ok m ivss Y hY]
    cases ivss with
    | nil => exact absurd rfl hne
    | cons a t => simp
  refine ⟨_, htr, ?_⟩
  unfold combineCovers
  obtain ⟨c1, c2, -, c4⟩ := C43_clean_masks ((cartesian (List.zipWith (fun y ivs => coverMasks ivs y) Y ivss)).map (andColumns m))
  -- tuples of columns correspond to boxes
  have hbox : ∀ t, t ∈ cartesian (List.zipWith (fun y ivs => coverMasks ivs y) Y ivss) ↔
      ∃ box, List.Forall₂ (fun I ivs => I ∈ ivs) box ivss ∧ t = List.zipWith (fun y I => y.map (inIval I)) Y box := by
    intro t
    rw [mem_cartesian]
    clear htr c1 c2 c4 hne hm
    induction Y generalizing ivss t with
    | nil =>
      cases ivss with
      | nil =>
        constructor
        · intro h; cases h; exact ⟨[], .nil, rfl⟩
        · rintro ⟨box, -, rfl⟩; exact .nil
      | cons _ _ => simp at hY
    | cons y Y ih =>
      cases ivss with
      | nil => simp at hY
      | cons ivs ivss =>
        rw [List.zipWith_cons_cons]
        constructor
        · intro h
          cases h with
          | cons h1 h2 =>
            obtain ⟨box, hb, rfl⟩ := (ih ivss (by simpa using hY) _).1 h2
            obtain ⟨I, hI, rfl⟩ := List.mem_map.1 h1
            exact ⟨I :: box, .cons hI hb, rfl⟩
        · rintro ⟨box, hb, rfl⟩
          cases hb with
          | cons h1 h2 =>
            rw [List.zipWith_cons_cons]
            exact .cons (List.mem_map.2 ⟨_, h1, rfl⟩) ((ih ivss (by simpa using hY) _).2 ⟨_, h2, rfl⟩)
  -- what the column of a box is
  have hcol : ∀ box : List (Ival K), box.length = Y.length → ∀ i, i < m →
      ((andColumns m (List.zipWith (fun y I => y.map (inIval I)) Y box))[i]? = some true ↔
        ∀ (j : Nat) I y x, box[j]? = some I → Y[j]? = some y → y[i]? = some x → InOpen I x) ∧
      (andColumns m (List.zipWith (fun y I => y.map (inIval I)) Y box)).length = m := by
    intro box hbl i hi
    have hlen : ∀ c ∈ List.zipWith (fun y I => y.map (inIval I)) Y box, c.length = m := by
      intro c hc
      obtain ⟨j, hj⟩ := List.mem_iff_getElem?.1 hc
      rw [List.getElem?_zipWith] at hj
      cases hy : Y[j]? with
      | none => rw [hy] at hj; cases hj
      | some y =>
        cases hI : box[j]? with
        | none => rw [hy, hI] at hj; cases hj
        | some I =>
          rw [hy, hI] at hj; cases hj
          rw [List.length_map]; exact hm y (List.mem_of_getElem? hy)
    obtain ⟨h1, h2⟩ := andColumns_get m _ hlen
    refine ⟨?_, h1⟩
    rw [h2 i hi]
    constructor
    · intro h j I y x hI hy hx
      have hmem : y.map (inIval I) ∈ List.zipWith (fun y I => y.map (inIval I)) Y box := by
        rw [List.mem_iff_getElem?]
        exact ⟨j, by rw [List.getElem?_zipWith, hy, hI]⟩
      have := h _ hmem
      rw [List.getElem?_map, hx, Option.map_some, Option.some.injEq, inIval_iff] at this
      exact this
    · intro h c hc
      obtain ⟨j, hj⟩ := List.mem_iff_getElem?.1 hc
      rw [List.getElem?_zipWith] at hj
      cases hy : Y[j]? with
      | none => rw [hy] at hj; cases hj
      | some y =>
        cases hI : box[j]? with
        | none => rw [hy, hI] at hj; cases hj
        | some I =>
          rw [hy, hI] at hj; cases hj
          have hyl : i < y.length := by rw [hm y (List.mem_of_getElem? hy)]; exact hi
          rw [List.getElem?_map, List.getElem?_eq_getElem hyl, Option.map_some, Option.some.injEq, inIval_iff]
          exact h j I y _ hI hy (List.getElem?_eq_getElem hyl)
  refine ⟨c2, ?_, ?_⟩
  · intro c
    rw [c1 c, List.mem_map]
    constructor
    · rintro ⟨⟨t, ht, rfl⟩, htrue⟩
      obtain ⟨box, hb, rfl⟩ := (hbox t).1 ht
      have hbl : box.length = Y.length := by rw [hb.length_eq, hY]
      have hmpos : 0 < m := by
        rcases Nat.eq_zero_or_pos m with h0 | h0
        · exfalso
          obtain ⟨i, hi⟩ := List.mem_iff_getElem?.1 htrue
          have hl0 := (andColumns_get m (List.zipWith (fun y I => y.map (inIval I)) Y box) (by
            intro c hc
            obtain ⟨j, hj⟩ := List.mem_iff_getElem?.1 hc
            rw [List.getElem?_zipWith] at hj
            cases hy : Y[j]? with
            | none => rw [hy] at hj; cases hj
            | some y =>
              cases hI : box[j]? with
              | none => rw [hy, hI] at hj; cases hj
              | some I =>
                rw [hy, hI] at hj; cases hj
                rw [List.length_map]; exact hm y (List.mem_of_getElem? hy))).1
          rw [List.getElem?_eq_none (by omega)] at hi
          cases hi
        · exact h0
      exact ⟨(hcol box hbl 0 hmpos).2, htrue, box, hb, fun i hi => (hcol box hbl i hi).1⟩
    · rintro ⟨hl, htrue, box, hb, hiff⟩
      have hbl : box.length = Y.length := by rw [hb.length_eq, hY]
      refine ⟨⟨_, (hbox _).2 ⟨box, hb, rfl⟩, ?_⟩, htrue⟩
      have hmpos : 0 < m := by
        obtain ⟨i, hi⟩ := List.mem_iff_getElem?.1 htrue
        by_contra h0
        rw [List.getElem?_eq_none (by omega)] at hi
        cases hi
      refine bool_ext (hcol box hbl 0 hmpos).2 hl fun i hi => ?_
      rw [(hcol box hbl i hi).1, hiff i hi]
  · intro hcov i hi
    rw [c4 i]
    -- choose, for each feature, an interval containing the coordinate
    have hchoose : ∃ box, List.Forall₂ (fun I ivs => I ∈ ivs) box ivss ∧
        ∀ (j : Nat) I y x, box[j]? = some I → Y[j]? = some y → y[i]? = some x → InOpen I x := by
      clear htr c1 c2 c4 hbox hcol hne
      induction Y generalizing ivss with
      | nil =>
        cases ivss with
        | nil => exact ⟨[], .nil, by intro j I y x h; simp at h⟩
        | cons _ _ => simp at hY
      | cons y Y ih =>
        cases ivss with
        | nil => simp at hY
        | cons ivs ivss =>
          obtain ⟨box, hb, hh⟩ := ih ivss (by simpa using hY) (fun y hy => hm y (by simp [hy])) fun ivs h => hcov ivs (by simp [h])
          have hyl : i < y.length := by rw [hm y (by simp)]; exact hi
          obtain ⟨I, hI, hIx⟩ := hcov ivs (by simp) y[i]
          refine ⟨I :: box, .cons hI hb, ?_⟩
          intro j I' y' x hj hy hx
          cases j with
          | zero =>
            simp only [List.getElem?_cons_zero, Option.some.injEq] at hj hy
            subst hj hy
            rw [List.getElem?_eq_getElem hyl, Option.some.injEq] at hx
            rw [← hx]; exact hIx
          | succ j =>
            simp only [List.getElem?_cons_succ] at hj hy
            exact hh j I' y' x hj hy hx
    obtain ⟨box, hb, hh⟩ := hchoose
    have hbl : box.length = Y.length := by rw [hb.length_eq, hY]
    exact ⟨_, List.mem_map_of_mem ((hbox _).2 ⟨box, hb, rfl⟩), (hcol box hbl i hi).1.2 hh⟩

example : cubicalTransform ⟨false, 2, (1 / 3 : ℚ)⟩ (cubicalFit ⟨false, 2, 1 / 3⟩ ⟨none⟩ [[0, 5, 5], [0, 0, 10]]).1 3 [[0, 5, 5], [0, 0, 10]] =
    .ok [[true, false, false], [false, true, false], [false, false, true]] := by decide +kernel

/-- `CubicalCover.fit` fits a one-dimensional cover on each feature, and these intervals cover the line; `fit_transform` returns what `fit` followed by
`transform` on the same data returns, for both kinds of cover. -/
theorem C44_fit_transform (p : CoverParams K) (hn : 1 ≤ p.n) (hf0 : 0 < p.f) (hf1 : p.f < 1) (s : CubicalState K) (m : Nat) (X : List (List K))
    (hX : X ≠ []) (hm : ∀ x ∈ X, x.length = m) (hm0 : 0 < m) (hd : p.n = 1 ∨ ∀ col ∈ X, ∃ x ∈ col, ∃ y ∈ col, x ≠ y) :
    ∃ ivss, List.Forall₂ (fun col ivs => coverFit p ⟨none⟩ col = (⟨some ivs⟩, .ok ())) X ivss ∧
      cubicalFit p s X = (⟨some (ivss.map fun ivs => ⟨some ivs⟩)⟩, .ok ()) ∧
      (∀ ivs ∈ ivss, ∀ x, ∃ I ∈ ivs, InOpen I x) ∧
      ∃ masks, cubicalTransform p ⟨some (ivss.map fun ivs => ⟨some ivs⟩)⟩ m X = .ok masks ∧ (cubicalFitTransform p s m X).2 = .ok masks := by
  -- columnwise facts
  have hcol : ∀ col ∈ X, ∃ ivs, coverFitLimits p col = .ok ivs ∧ (∀ x, ∃ I ∈ ivs, InOpen I x) ∧
      (p.balanced = true → ∃ covers lims, fitTransformBalanced p.n p.f col = .ok (covers, lims) ∧ cleanMasks (coverMasks ivs col) = cleanMasks covers ∧
        ∀ c ∈ covers, c.length = col.length) := by
    intro col hcol
    have hne : col ≠ [] := by
      intro h; have := hm col hcol; rw [h] at this; simp at this; omega
    have hdc : p.n = 1 ∨ ∃ x ∈ col, ∃ y ∈ col, x ≠ y := hd.imp id fun h => h col hcol
    cases hb : p.balanced with
    | true =>
      obtain ⟨ivs, lims, len, -, -, hfit, hft, hag, -, hline⟩ := balanced_masks_agree p.n hn p.f hf0 hf1 col hne hdc
      refine ⟨ivs, by simp [coverFitLimits, hb, hfit], hline, fun _ => ⟨_, lims, hft, hag, ?_⟩⟩
      intro c hc
      obtain ⟨k, -, rfl⟩ := List.mem_map.1 hc
      simp [rankMask]
    | false =>
      obtain ⟨x, t, rfl⟩ := List.exists_cons_of_ne_nil hne
      obtain ⟨m1, m2⟩ := foldl_min_spec t x
      obtain ⟨M1, M2⟩ := foldl_max_spec t x
      have hlt : t.foldl min x < t.foldl max x ∨ p.n = 1 := by
        rcases hdc with h | ⟨a, ha, b, hb, hne⟩
        · exact Or.inr h
        · left
          rcases lt_or_gt_of_ne hne with h | h
          · exact lt_of_le_of_lt (m2 a ha) (lt_of_lt_of_le h (M2 b hb))
          · exact lt_of_le_of_lt (m2 b hb) (lt_of_lt_of_le h (M2 a ha))
      obtain ⟨ivs, len, hfit, -, -, -, -, hline, -⟩ := C40_uniform_cover p.n hn p.f hf0 hf1 (x :: t) _ _ ⟨m1, m2⟩ ⟨M1, M2⟩ hlt
      exact ⟨ivs, by simp [coverFitLimits, hb, hfit], hline, fun h => by simp at h⟩
  have hall : ∃ ivss, List.Forall₂ (fun col ivs => coverFitLimits p col = .ok ivs ∧ (∀ x, ∃ I ∈ ivs, InOpen I x) ∧
      (p.balanced = true → ∃ covers lims, fitTransformBalanced p.n p.f col = .ok (covers, lims) ∧ cleanMasks (coverMasks ivs col) = cleanMasks covers ∧
        ∀ c ∈ covers, c.length = col.length)) X ivss := by
    clear hX hm hd
    induction X with
    | nil => exact ⟨[], .nil⟩
    | cons a t ih =>
      obtain ⟨ivs, h⟩ := hcol a (by simp)
      obtain ⟨ivss, hh⟩ := ih fun col hc => hcol col (by simp [hc])
      exact ⟨ivs :: ivss, .cons h hh⟩
  obtain ⟨ivss, hF⟩ := hall
  have hmap : X.mapM (coverFitLimits p) = .ok ivss := mapM_ok_iff.2 (hF.imp fun _ _ h => h.1)
  have hXl : X.length = ivss.length := hF.length_eq
  have htr : cubicalTransform p ⟨some (ivss.map fun ivs => ⟨some ivs⟩)⟩ m X = .ok (combineCovers m (List.zipWith (fun y ivs => coverMasks ivs y) X ivss)) := by
    unfold cubicalTransform
    simp only [List.length_map, hXl, ne_eq, not_true_eq_false, if_false]
    rw [← cubicalMasks_ok m ivss X hXl]
    cases ivss with
    | nil => exact absurd (List.length_eq_zero_iff.1 hXl) hX
    | cons a t => simp
  refine ⟨ivss, hF.imp fun _ _ h => by simp [coverFit, h.1], by simp [cubicalFit, hmap], ?_, _, htr, ?_⟩
  · intro ivs hivs
    obtain ⟨j, hj⟩ := List.mem_iff_getElem?.1 hivs
    have hjl : j < ivss.length := by
      by_contra h; rw [List.getElem?_eq_none (by omega)] at hj; cases hj
    have := (List.forall₂_iff_get.1 hF).2 j (by omega) hjl
    rw [List.getElem?_eq_getElem hjl, Option.some.injEq] at hj
    simp only [List.get_eq_getElem, hj] at this
    exact this.2.1
  · cases hb : p.balanced with
    | false =>
      simp only [cubicalFitTransform, hb, Bool.false_eq_true, if_false, hmap]
      exact cubicalMasks_ok m ivss X hXl
    | true =>
      have hcov : ∃ coverss, X.mapM (fun x => (fitTransformBalanced p.n p.f x).map Prod.fst) = .ok coverss ∧
          List.Forall₂ (fun l l' => cleanMasks l = cleanMasks l') (List.zipWith (fun y ivs => coverMasks ivs y) X ivss) coverss ∧
          (∀ l ∈ coverss, ∀ c ∈ l, c.length = m) ∧ ∀ l ∈ List.zipWith (fun y ivs => coverMasks ivs y) X ivss, ∀ c ∈ l, c.length = m := by
        clear htr hmap hXl hX hd hcol
        induction hF with
        | nil => exact ⟨[], rfl, .nil, by simp, by simp⟩
        | cons h _ ih =>
          obtain ⟨coverss, h1, h2, h3, h4⟩ := ih fun x hx => hm x (by simp [hx])
          obtain ⟨-, -, h5⟩ := h
          obtain ⟨covers, lims, h6, h7, h8⟩ := h5 hb
          refine ⟨covers :: coverss, ?_, .cons h7 h2, ?_, ?_⟩
          · rw [List.mapM_cons, h6, h1]; rfl
          · intro l hl c hc
            rcases List.mem_cons.1 hl with rfl | hl
            · rw [h8 c hc]; exact hm _ (by simp)
            · exact h3 l hl c hc
          · intro l hl c hc
            rw [List.zipWith_cons_cons] at hl
            rcases List.mem_cons.1 hl with rfl | hl
            · obtain ⟨I, -, rfl⟩ := List.mem_map.1 hc
              rw [List.length_map]; exact hm _ (by simp)
            · exact h4 l hl c hc
      obtain ⟨coverss, h1, h2, h3, h4⟩ := hcov
      simp only [cubicalFitTransform, hb, if_true, h1]
      rw [combineCovers_congr h2 h4 h3]

end

end Gtda.Props
