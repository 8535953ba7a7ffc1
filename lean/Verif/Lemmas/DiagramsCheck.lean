import Verif.Lemmas.Diagrams

set_option autoImplicit false
set_option linter.unusedSectionVars false

/-! Lemmas about `check_diagrams` and the transformers that only validate and rewrite entries. -/

namespace Gtda.Diagrams
open Gtda.Py

variable {K : Type} [Field K] [LinearOrder K] [IsStrictOrderedRing K] [FloorRing K]

/-- A natural number as a homology dimension. -/
def natDim (k : Nat) : Ext K := (((k : K) : WithTop K) : Ext K)

theorem trunc_nat (x : K) : ¬ (x ≠ (((if 0 ≤ x then ⌊x⌋ else ⌈x⌉ : Int)) : K) ∨ x < 0) ↔ ∃ k : Nat, x = (k : K) := by
  constructor
  · intro h
    push Not at h
    obtain ⟨h1, h2⟩ := h
    rw [if_pos h2] at h1
    have h3 : 0 ≤ ⌊x⌋ := Int.floor_nonneg.mpr h2
    refine ⟨⌊x⌋.toNat, ?_⟩
    have : ((⌊x⌋.toNat : Int) : K) = (⌊x⌋ : K) := by rw [Int.toNat_of_nonneg h3]
    rw [← this] at h1
    conv_lhs => rw [h1]
    exact Int.cast_natCast _
  · rintro ⟨k, rfl⟩
    push Not
    have : (0 : K) ≤ (k : K) := Nat.cast_nonneg k
    refine ⟨?_, this⟩
    rw [if_pos this]
    simp

theorem natDim_ne_top (k : Nat) : natDim (K := K) k ≠ ((⊤ : WithTop K) : Ext K) := by
  unfold natDim
  intro h
  exact WithTop.coe_ne_top (WithBot.coe_injective h)

theorem checkDim_bot (n : Nat) : checkDim n (⊥ : Ext K) = .error .overflowError := rfl

theorem checkDim_top (n : Nat) : checkDim n ((⊤ : WithTop K) : Ext K) = if n ≠ 1 then .error .valueError else .ok () := rfl

theorem checkDim_coe (n : Nat) (x : K) : checkDim n ((x : WithTop K) : Ext K) =
    if x ≠ (((if 0 ≤ x then ⌊x⌋ else ⌈x⌉ : Int)) : K) ∨ x < 0 then .error .valueError else .ok () := rfl

theorem checkDim_ok (n : Nat) (dim : Ext K) :
    checkDim n dim = .ok () ↔ (dim = ((⊤ : WithTop K) : Ext K) ∧ n = 1) ∨ ∃ k : Nat, dim = natDim k := by
  induction dim using WithBot.recBotCoe with
  | bot => rw [checkDim_bot]; simp [natDim]
  | coe dim =>
    induction dim using WithTop.recTopCoe with
    | top =>
      rw [checkDim_top]
      have hnot : ¬ ∃ k : Nat, ((⊤ : WithTop K) : Ext K) = natDim k := fun ⟨k, hk⟩ => natDim_ne_top k hk.symm
      by_cases hn : n = 1
      · rw [if_neg (by simpa using hn)]; exact ⟨fun _ => Or.inl ⟨rfl, hn⟩, fun _ => rfl⟩
      · rw [if_pos hn]
        refine ⟨fun h => by simp at h, ?_⟩
        rintro (h | h)
        · exact absurd h.2 hn
        · exact absurd h hnot
    | coe x =>
      rw [checkDim_coe]
      have htop : ((x : WithTop K) : Ext K) ≠ ((⊤ : WithTop K) : Ext K) := fun h => WithTop.coe_ne_top (WithBot.coe_injective h)
      have hk : (∃ k : Nat, ((x : WithTop K) : Ext K) = natDim k) ↔ ∃ k : Nat, x = (k : K) := by
        apply exists_congr
        intro k
        constructor
        · intro h; exact WithTop.coe_injective (WithBot.coe_injective h)
        · rintro rfl; rfl
      rw [hk]
      constructor
      · intro h
        right
        apply (trunc_nat x).mp
        intro hx
        rw [if_pos hx] at h
        cases h
      · rintro (h | h)
        · exact absurd h.1 htop
        · rw [if_neg ((trunc_nat x).mpr h)]

theorem mapM_unit_ok {α : Type} (f : α → PyM Unit) (l : List α) :
    (∀ x ∈ l, f x = .ok ()) ∨ ∃ e, l.mapM f = .error e := by
  induction l with
  | nil => simp
  | cons a t ih =>
    cases ha : f a with
    | error e => right; exact ⟨e, by simp [List.mapM_cons, ha]⟩
    | ok u =>
      rcases ih with h | ⟨e, h⟩
      · left
        intro x hx
        rcases List.mem_cons.mp hx with rfl | hx
        · exact ha
        · exact h x hx
      · right; exact ⟨e, by simp [List.mapM_cons, ha, h]⟩

theorem checkDiagrams_cases (X : Arr K) (hc : X.Consistent) :
    (ValidCollection X ∧ checkDiagrams X = .ok X) ∨ (¬ ValidCollection X ∧ ∃ e, checkDiagrams X = .error e) := by
  unfold checkDiagrams
  by_cases h1 : X.shape.headD 0 = 0
  · right
    rw [if_pos h1]
    refine ⟨?_, _, rfl⟩
    rintro ⟨⟨n, m, hs, hn⟩, -⟩
    rw [hs] at h1
    exact hn h1
  rw [if_neg h1]
  by_cases h2 : X.shape.length = 3 ∧ (X.data.any fun D => D.any fun p => p.any (·.isNone)) = true
  · right
    rw [if_pos h2]
    refine ⟨?_, _, rfl⟩
    rintro ⟨-, hnan, -⟩
    obtain ⟨D, hD, h⟩ := List.any_eq_true.mp h2.2
    obtain ⟨p, hp, h⟩ := List.any_eq_true.mp h
    obtain ⟨v, hv, h⟩ := List.any_eq_true.mp h
    exact hnan D hD p hp v hv (by simpa using h)
  rw [if_neg h2]
  by_cases h3 : X.shape.length ≠ 3
  · right
    rw [if_pos h3]
    refine ⟨?_, _, rfl⟩
    rintro ⟨⟨n, m, hs, hn⟩, -⟩
    rw [hs] at h3
    exact h3 rfl
  rw [if_neg h3]
  by_cases h4 : X.shape.getD 2 0 ≠ 3
  · right
    rw [if_pos h4]
    refine ⟨?_, _, rfl⟩
    rintro ⟨⟨n, m, hs, hn⟩, -⟩
    rw [hs] at h4
    exact h4 rfl
  rw [if_neg h4]
  push Not at h3 h4
  obtain ⟨n, m, hs⟩ : ∃ n m, X.shape = [n, m, 3] := by
    match hX : X.shape, h3, h4 with
    | [a, b, c], _, h4 => exact ⟨a, b, by simp at h4; rw [h4]⟩
  have hn : n ≠ 0 := by
    intro h; apply h1; rw [hs, h]; rfl
  obtain ⟨hlen, hrows⟩ := hc n m 3 hs
  have hnan : ∀ D ∈ X.data, ∀ p ∈ D, ∀ v ∈ p, v ≠ none := by
    intro D hD p hp v hv hv0
    apply h2
    refine ⟨h3, List.any_eq_true.mpr ⟨D, hD, List.any_eq_true.mpr ⟨p, hp, List.any_eq_true.mpr ⟨v, hv, by simp [hv0]⟩⟩⟩⟩
  have htriple : ∀ D ∈ X.data, ∀ p ∈ D, ∃ b d q : Ext K, p = [some b, some d, some q] := by
    intro D hD p hp
    have hl := (hrows D hD).2 p hp
    match p, hl with
    | [x, y, z], _ =>
      have hx := hnan D hD _ hp x (by simp)
      have hy := hnan D hD _ hp y (by simp)
      have hz := hnan D hD _ hp z (by simp)
      obtain ⟨b, rfl⟩ := Option.ne_none_iff_exists'.mp hx
      obtain ⟨d, rfl⟩ := Option.ne_none_iff_exists'.mp hy
      obtain ⟨q, rfl⟩ := Option.ne_none_iff_exists'.mp hz
      exact ⟨b, d, q, rfl⟩
  obtain ⟨D0, Dt, hdata⟩ : ∃ D0 Dt, X.data = D0 :: Dt := by
    cases hX : X.data with
    | nil => rw [hX] at hlen; simp at hlen; exact absurd hlen.symm hn
    | cons a t => exact ⟨a, t, rfl⟩
  have hD0 : D0 ∈ X.data := by rw [hdata]; simp
  set dims := (((X.data.headD []).filterMap fun p => (p.getD 2 none)).dedup).insertionSort (· ≤ ·) with hdims
  have hmem : ∀ q, q ∈ dims ↔ ∃ p ∈ D0, p[2]? = some (some q) := by
    intro q
    rw [hdims, List.mem_insertionSort, List.mem_dedup, List.mem_filterMap, hdata]
    simp only [List.headD_cons]
    apply exists_congr
    intro p
    apply and_congr_right
    intro hp
    obtain ⟨b, d, q', rfl⟩ := htriple D0 hD0 p hp
    simp
  have hdimsvalid : (∀ q ∈ dims, checkDim dims.length q = .ok ()) ↔
      ((∀ D, X.data[0]? = some D → ∀ p ∈ D, ∃ k : Nat, p[2]? = some (some (((k : K) : WithTop K) : Ext K))) ∨
      (∀ D, X.data[0]? = some D → ∀ p ∈ D, p[2]? = some (some ((⊤ : WithTop K) : Ext K)))) := by
    have h0 : X.data[0]? = some D0 := by rw [hdata]; rfl
    constructor
    · intro h
      by_cases htop : ((⊤ : WithTop K) : Ext K) ∈ dims
      · right
        have hl : dims.length = 1 := by
          rcases (checkDim_ok _ _).mp (h _ htop) with h | ⟨k, hk⟩
          · exact h.2
          · exact absurd hk.symm (natDim_ne_top k)
        intro D hD p hp
        rw [h0, Option.some.injEq] at hD
        subst hD
        obtain ⟨b, d, q, rfl⟩ := htriple D0 hD0 p hp
        have hq : q ∈ dims := (hmem q).mpr ⟨_, hp, rfl⟩
        obtain ⟨a, ha⟩ := List.length_eq_one_iff.mp hl
        rw [ha, List.mem_singleton] at hq htop
        rw [hq, ← htop]
        rfl
      · left
        intro D hD p hp
        rw [h0, Option.some.injEq] at hD
        subst hD
        obtain ⟨b, d, q, rfl⟩ := htriple D0 hD0 p hp
        have hq : q ∈ dims := (hmem q).mpr ⟨_, hp, rfl⟩
        rcases (checkDim_ok _ _).mp (h _ hq) with h | ⟨k, hk⟩
        · exact absurd (h.1 ▸ hq) htop
        · exact ⟨k, by rw [hk]; rfl⟩
    · rintro (h | h) q hq
      · obtain ⟨p, hp, hpq⟩ := (hmem q).mp hq
        obtain ⟨k, hk⟩ := h D0 h0 p hp
        rw [hpq] at hk
        simp only [Option.some.injEq] at hk
        exact (checkDim_ok _ _).mpr (Or.inr ⟨k, hk⟩)
      · have hall : ∀ q ∈ dims, q = ((⊤ : WithTop K) : Ext K) := by
          intro q hq
          obtain ⟨p, hp, hpq⟩ := (hmem q).mp hq
          have := h D0 h0 p hp
          rw [hpq] at this
          simpa using this
        have hnd : dims.Nodup := (List.perm_insertionSort _ _).nodup_iff.mpr (List.nodup_dedup _)
        have hl : dims.length = 1 := by
          clear_value dims
          match dims, hq, hall, hnd with
          | [a], _, _, _ => rfl
          | a :: b :: t, _, hall, hnd =>
            have h1 := hall a (by simp)
            have h2 := hall b (by simp)
            rw [h1, h2] at hnd
            simp at hnd
        exact (checkDim_ok _ _).mpr (Or.inl ⟨hall q hq, hl⟩)
  dsimp only
  rcases mapM_unit_ok (checkDim dims.length) dims with hok | ⟨e, he⟩
  · rw [mapM_ok (g := fun _ => ()) hok]
    simp only [ok_bind]
    have hbelow : ((X.data.flatten.filter fun p =>
        match p.getD 0 none, p.getD 1 none with
        | some b, some d => decide (d < b)
        | _, _ => false).length ≠ 0) ↔
        ¬ (∀ D ∈ X.data, ∀ p ∈ D, ∀ b d, p[0]? = some (some b) → p[1]? = some (some d) → b ≤ d) := by
      rw [not_iff_comm, not_not, List.length_eq_zero_iff, List.filter_eq_nil_iff]
      constructor
      · intro h p hp
        obtain ⟨D, hD, hp⟩ := List.mem_flatten.mp hp
        obtain ⟨b, d, q, rfl⟩ := htriple D hD p hp
        simpa using h D hD _ hp b d rfl rfl
      · intro h D hD p hp b d hb hd
        have := h p (List.mem_flatten.mpr ⟨D, hD, hp⟩)
        obtain ⟨b', d', q, rfl⟩ := htriple D hD p hp
        simp only [List.getElem?_cons_zero, List.getElem?_cons_succ, Option.some.injEq] at hb hd
        subst hb hd
        simpa using this
    by_cases hb : (∀ D ∈ X.data, ∀ p ∈ D, ∀ b d, p[0]? = some (some b) → p[1]? = some (some d) → b ≤ d)
    · left
      refine ⟨⟨⟨n, m, hs, hn⟩, hnan, hb, hdimsvalid.mp hok⟩, ?_⟩
      exact if_neg (fun h => hbelow.mp h hb)
    · right
      refine ⟨fun hv => hb hv.2.2.1, .valueError, ?_⟩
      exact if_pos (hbelow.mpr hb)
  · right
    rw [he]
    refine ⟨?_, e, rfl⟩
    rintro ⟨-, -, -, hv⟩
    have := hdimsvalid.mpr hv
    rw [mapM_ok (g := fun _ => ()) this] at he
    cases he

theorem checkDiagrams_ok (X : Arr K) (hc : X.Consistent) (hv : ValidCollection X) : checkDiagrams X = .ok X := by
  rcases checkDiagrams_cases X hc with h | h
  · exact h.2
  · exact absurd hv h.1

/-! ### Rewriting entries -/

/-- Rewrite all triples. -/
def mapTriples (X : Arr K) (f : List (Option (Ext K)) → List (Option (Ext K))) : Arr K :=
  { X with data := X.data.map fun D => D.map f }

theorem modify_last {α : Type} (h : List α) (x : α) (f : α → α) : (h ++ [x]).modify h.length f = h ++ [f x] := by
  rw [List.modify_eq_set_getElem?]
  simp

theorem checkDiagramsRef_ok (h : Heap K) (r : Nat) (X : Arr K) (hr : h[r]? = some X) (hc : X.Consistent) (hv : ValidCollection X) :
    checkDiagramsRef h r true = .ok (h ++ [X], h.length) := by
  unfold checkDiagramsRef
  rw [hr]
  simp only [checkDiagrams_ok X hc hv, ok_bind, if_true]

theorem checkDiagramsRef_error (h : Heap K) (r : Nat) (X : Arr K) (hr : h[r]? = some X) (hc : X.Consistent)
    (hv : ¬ ValidCollection X) : ∃ e, checkDiagramsRef h r true = .error e := by
  unfold checkDiagramsRef
  rw [hr]
  rcases checkDiagrams_cases X hc with h | ⟨-, e, he⟩
  · exact absurd h.1 hv
  · exact ⟨e, by simp [he]⟩

theorem mapTriples_consistent (X : Arr K) (f : List (Option (Ext K)) → List (Option (Ext K))) (hf : ∀ p, (f p).length = p.length)
    (hc : X.Consistent) : (mapTriples X f).Consistent := by
  intro n m k hs
  obtain ⟨h1, h2⟩ := hc n m k hs
  refine ⟨by simpa [mapTriples] using h1, ?_⟩
  intro D hD
  obtain ⟨D', hD', rfl⟩ := List.mem_map.mp hD
  obtain ⟨h3, h4⟩ := h2 D' hD'
  refine ⟨by simpa using h3, ?_⟩
  intro p hp
  obtain ⟨p', hp', rfl⟩ := List.mem_map.mp hp
  rw [hf]
  exact h4 p' hp'

theorem triple_of_valid (X : Arr K) (hc : X.Consistent) (hv : ValidCollection X) (D : List (List (Option (Ext K)))) (hD : D ∈ X.data)
    (p : List (Option (Ext K))) (hp : p ∈ D) : ∃ b d q : Ext K, p = [some b, some d, some q] ∧ b ≤ d := by
  obtain ⟨⟨n, m, hs, hn⟩, hnan, hbd, -⟩ := hv
  have hl := ((hc n m 3 hs).2 D hD).2 p hp
  match p, hl with
  | [x, y, z], _ =>
    have hx := hnan D hD _ hp x (by simp)
    have hy := hnan D hD _ hp y (by simp)
    have hz := hnan D hD _ hp z (by simp)
    obtain ⟨b, rfl⟩ := Option.ne_none_iff_exists'.mp hx
    obtain ⟨d, rfl⟩ := Option.ne_none_iff_exists'.mp hy
    obtain ⟨q, rfl⟩ := Option.ne_none_iff_exists'.mp hz
    exact ⟨b, d, q, rfl, hbd D hD _ hp b d rfl rfl⟩

/-- Rewriting births and deaths monotonically keeps a collection valid. -/
theorem mapTriples_valid (X : Arr K) (hc : X.Consistent) (hv : ValidCollection X) (f : List (Option (Ext K)) → List (Option (Ext K)))
    (g : Ext K → Ext K) (hg : ∀ b d, b ≤ d → g b ≤ g d) (hf : ∀ b d q : Ext K, f [some b, some d, some q] = [some (g b), some (g d), some q]) :
    ValidCollection (mapTriples X f) := by
  have htr := triple_of_valid X hc hv
  obtain ⟨hsh, hnan, hbd, hdim⟩ := hv
  have hmem : ∀ D ∈ (mapTriples X f).data, ∀ p ∈ D, ∃ b d q : Ext K, p = [some (g b), some (g d), some q] ∧ b ≤ d := by
    intro D hD p hp
    obtain ⟨D', hD', rfl⟩ := List.mem_map.mp hD
    obtain ⟨p', hp', rfl⟩ := List.mem_map.mp hp
    obtain ⟨b, d, q, rfl, hle⟩ := htr D' hD' p' hp'
    exact ⟨b, d, q, hf b d q, hle⟩
  refine ⟨hsh, ?_, ?_, ?_⟩
  · intro D hD p hp v hv
    obtain ⟨b, d, q, rfl, hle⟩ := hmem D hD p hp
    simp at hv
    rcases hv with rfl | rfl | rfl <;> simp
  · intro D hD p hp b d hb hd
    obtain ⟨b', d', q, rfl, hle⟩ := hmem D hD p hp
    simp at hb hd
    subst hb hd
    exact hg _ _ hle
  · have hsame : ∀ D, (mapTriples X f).data[0]? = some D → ∀ p ∈ D, ∃ D', X.data[0]? = some D' ∧ ∃ p' ∈ D', p[2]? = p'[2]? := by
      intro D hD p hp
      simp only [mapTriples, List.getElem?_map, Option.map_eq_some_iff] at hD
      obtain ⟨D', hD', rfl⟩ := hD
      obtain ⟨p', hp', rfl⟩ := List.mem_map.mp hp
      refine ⟨D', hD', p', hp', ?_⟩
      obtain ⟨b, d, q, rfl, -⟩ := htr D' (List.mem_of_getElem? hD') p' hp'
      rw [hf]; rfl
    rcases hdim with h | h
    · left
      intro D hD p hp
      obtain ⟨D', hD', p', hp', he⟩ := hsame D hD p hp
      obtain ⟨k, hk⟩ := h D' hD' p' hp'
      exact ⟨k, by rw [he, hk]⟩
    · right
      intro D hD p hp
      obtain ⟨D', hD', p', hp', he⟩ := hsame D hD p hp
      rw [he]
      exact h D' hD' p' hp'

/-- The scaled value. -/
def divX (x : Ext K) (s : K) : Ext K := x.map (·.map (· / s))

/-- The value scaled back. -/
def mulX (x : Ext K) (s : K) : Ext K := x.map (·.map (· * s))

theorem divE_pos (x : Ext K) (s : K) (hs : 0 < s) : divE (some x) s = some (divX x s) := by
  induction x using WithBot.recBotCoe with
  | bot => show (if 0 ≤ s then some ⊥ else _) = _; rw [if_pos hs.le]; rfl
  | coe x =>
    induction x using WithTop.recTopCoe with
    | top => show (if 0 ≤ s then _ else _) = _; rw [if_pos hs.le]; rfl
    | coe x => show (if s ≠ 0 then _ else _) = _; rw [if_pos hs.ne']; rfl

theorem mulE_pos (x : Ext K) (s : K) (hs : 0 < s) : mulE (some x) s = some (mulX x s) := by
  induction x using WithBot.recBotCoe with
  | bot => show (if s = 0 then _ else if 0 < s then _ else _) = _; rw [if_neg hs.ne', if_pos hs]; rfl
  | coe x =>
    induction x using WithTop.recTopCoe with
    | top => show (if s = 0 then _ else if 0 < s then _ else _) = _; rw [if_neg hs.ne', if_pos hs]; rfl
    | coe x => rfl

theorem mulX_divX (x : Ext K) (s : K) (hs : 0 < s) : mulX (divX x s) s = x := by
  induction x using WithBot.recBotCoe with
  | bot => rfl
  | coe x =>
    induction x using WithTop.recTopCoe with
    | top => rfl
    | coe x =>
      show (((x / s * s : K) : WithTop K) : Ext K) = _
      rw [div_mul_cancel₀ _ hs.ne']

theorem divX_mulX (x : Ext K) (s : K) (hs : 0 < s) : divX (mulX x s) s = x := by
  induction x using WithBot.recBotCoe with
  | bot => rfl
  | coe x =>
    induction x using WithTop.recTopCoe with
    | top => rfl
    | coe x =>
      show (((x * s / s : K) : WithTop K) : Ext K) = _
      rw [mul_div_cancel_right₀ _ hs.ne']

theorem map_mono (f : K → K) (hf : Monotone f) (b d : Ext K) (h : b ≤ d) :
    WithBot.map (WithTop.map f) b ≤ WithBot.map (WithTop.map f) d := by
  have h1 : Monotone (WithTop.map f) := hf.withTop_map
  exact h1.withBot_map h

theorem divX_mono (s : K) (hs : 0 < s) (b d : Ext K) (h : b ≤ d) : divX b s ≤ divX d s :=
  map_mono _ (fun x y hxy => by show x / s ≤ y / s; gcongr) b d h

theorem mulX_mono (s : K) (hs : 0 < s) (b d : Ext K) (h : b ≤ d) : mulX b s ≤ mulX d s :=
  map_mono _ (fun x y hxy => by show x * s ≤ y * s; gcongr) b d h

theorem mapTriples_mapTriples_id (X : Arr K) (f g : List (Option (Ext K)) → List (Option (Ext K)))
    (h : ∀ D ∈ X.data, ∀ p ∈ D, g (f p) = p) : mapTriples (mapTriples X f) g = X := by
  unfold mapTriples
  cases X with
  | mk shape data =>
    congr 1
    simp only [List.map_map]
    conv_rhs => rw [← List.map_id data]
    apply List.map_congr_left
    intro D hD
    simp only [Function.comp, List.map_map, id]
    conv_rhs => rw [← List.map_id D]
    apply List.map_congr_left
    intro p hp
    exact h D hD p hp

end Gtda.Diagrams
