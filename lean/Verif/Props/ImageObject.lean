import Verif.Spec.ImageObject
import Verif.Props.ImagesPre

/-!
# C129: Binarizer, Inverter, Padder and the filtrations by dilation as objects
-/

set_option autoImplicit false
set_option linter.unusedSectionVars false

namespace Gtda.Props.ImageObject

open Gtda.Py Gtda.Images Gtda.ImageObject Gtda.Spec.Images Gtda.Spec.ImageObject

theorem checkArray_ok {shape : List Nat} {n : Nat} (h : IsCollection shape n) : checkArray shape n = .ok shape.length := by
  unfold checkArray
  rw [if_neg]
  rintro (h1 | h1 | h1)
  · exact h.1 h1
  · exact h.2.1 h1
  · exact h.2.2 h1

theorem checkArray_error {shape : List Nat} {n : Nat} (h : ¬ IsCollection shape n) : checkArray shape n = .error .valueError := by
  unfold checkArray
  rw [if_pos]
  by_contra h1
  push Not at h1
  exact h h1

section

variable {P S D O : Type} (c : Cls P S D O)

theorem fit_refused (o : Obj P S) (X : D) (h : ∀ n, c.array X = .ok n → 3 < n ∨ ∃ e, c.validate o.params = .error e) :
    (∃ e, (fit c o X).2 = .error e) ∧ (fit c o X).1.attrs = o.attrs ∧ (fit c o X).1.params = o.params ∧
      ((∃ n, (fit c o X).1.nDims = some n ∧ c.array X = .ok n) ∨ (fit c o X).1.nDims = o.nDims) := by
  unfold fit
  cases hX : c.array X with
  | error e => exact ⟨⟨e, rfl⟩, rfl, rfl, Or.inr rfl⟩
  | ok n =>
      dsimp only
      rcases h n hX with h3 | ⟨e, he⟩
      · rw [if_pos h3]
        exact ⟨⟨_, rfl⟩, rfl, rfl, Or.inl ⟨n, rfl, rfl⟩⟩
      · by_cases h3 : 3 < n
        · rw [if_pos h3]
          exact ⟨⟨_, rfl⟩, rfl, rfl, Or.inl ⟨n, rfl, rfl⟩⟩
        · rw [if_neg h3, he]
          exact ⟨⟨_, rfl⟩, rfl, rfl, Or.inl ⟨n, rfl, rfl⟩⟩

theorem fit_checked (o : Obj P S) (X : D) (n : Nat) (h : c.array X = .ok n) (h3 : n ≤ 3) (hv : c.validate o.params = .ok ()) :
    fit c o X = (⟨o.params, some n, (c.learn o.params X o.attrs).1⟩, (c.learn o.params X o.attrs).2) := by
  unfold fit
  rw [h]
  dsimp only
  rw [if_neg (by omega), hv]

theorem transform_ok (o : Obj P S) (n m : Nat) (ho : o.nDims = some n) (nJobs : Nat) (X : D) (hX : c.array X = .ok m) :
    transform c o nJobs X = c.body o.params n o.attrs nJobs X := by
  unfold transform
  rw [ho]
  dsimp only
  rw [hX]
  rfl

/-- Only `fit` with a collection of arrays sets `n_dimensions_`. -/
theorem noFit_run (ops : List (Op P D)) : ∀ o : Obj P S, o.nDims = none → NoFit (fun X => ∃ n, c.array X = .ok n) ops → (run c o ops).nDims = none := by
  induction ops with
  | nil => intro o h _; exact h
  | cons op ops ih =>
      intro o h hn
      have hn' : NoFit (fun X => ∃ n, c.array X = .ok n) ops := fun X hX => hn X (List.mem_cons_of_mem _ hX)
      cases op with
      | setParams q => exact ih _ h hn'
      | transform n X => exact ih _ h hn'
      | fit X =>
          refine ih (fit c o X).1 ?_ hn'
          have : ∃ e, c.array X = .error e := by
            cases hX : c.array X with
            | error e => exact ⟨e, rfl⟩
            | ok n => exact absurd ⟨n, hX⟩ (hn X List.mem_cons_self)
          obtain ⟨e, he⟩ := this
          unfold fit
          rw [he]
          exact h

end

section

variable {P A D O : Type} (c : Cls P (Option A) D O)

/-- The object agrees with what the history left. -/
def Agrees (R : P → D → A → Prop) (o : Obj P (Option A)) (t : P × Option (P × D)) : Prop :=
  o.params = t.1 ∧ match t.2 with
    | none => o.attrs = none
    | some (q, X) => (∃ n, o.nDims = some n) ∧ ∃ a, o.attrs = some a ∧ R q X a

open Classical in
/-- Classes that have one attribute, replaced last. -/
theorem run_agrees (Acc : P → D → Prop) (R : P → D → A → Prop) (g : P → D → PyM A) (hg : ∀ p X s, c.learn p X s = store (g p X) s)
    (hacc : ∀ p X, Acc p X → (∃ n, c.array X = .ok n ∧ n ≤ 3) ∧ c.validate p = .ok () ∧ ∃ a, g p X = .ok a ∧ R p X a)
    (hrej : ∀ p X, ¬ Acc p X → ∀ n, c.array X = .ok n → n ≤ 3 → c.validate p = .ok () → ∃ e, g p X = .error e)
    (ops : List (Op P D)) : ∀ (o : Obj P (Option A)) t, Agrees R o t → Agrees R (run c o ops) (after Acc t ops) := by
  induction ops with
  | nil => intro o t h; exact h
  | cons op ops ih =>
      intro o t h
      cases op with
      | setParams q => exact ih { o with params := q } (q, t.2) ⟨rfl, h.2⟩
      | transform n X => exact ih o t h
      | fit X =>
          change Agrees R (run c (fit c o X).1 ops) (after Acc (t.1, if Acc t.1 X then some (t.1, X) else t.2) ops)
          apply ih
          by_cases ha : Acc t.1 X
          · rw [if_pos ha]
            obtain ⟨⟨n, h1, h3⟩, h2, a, h4, h5⟩ := hacc _ _ ha
            rw [fit_checked c o X n h1 h3 (by rw [h.1]; exact h2), hg, h.1, h4]
            exact ⟨rfl, ⟨n, rfl⟩, a, rfl, h5⟩
          · rw [if_neg ha]
            have hattr : (fit c o X).1.attrs = o.attrs ∧ (fit c o X).1.params = o.params ∧ ((∃ n, (fit c o X).1.nDims = some n) ∨ (fit c o X).1.nDims = o.nDims) := by
              by_cases hr : ∀ n, c.array X = .ok n → 3 < n ∨ ∃ e, c.validate o.params = .error e
              · obtain ⟨_, h1, h2, h3⟩ := fit_refused c o X hr
                refine ⟨h1, h2, ?_⟩
                rcases h3 with ⟨n, h3, _⟩ | h3
                · exact Or.inl ⟨n, h3⟩
                · exact Or.inr h3
              · push Not at hr
                obtain ⟨n, h1, h2, h3⟩ := hr
                have hv : c.validate o.params = .ok () := by
                  cases hv : c.validate o.params with
                  | error e => exact absurd hv (h3 e)
                  | ok u => rfl
                obtain ⟨e, he⟩ := hrej _ _ ha n h1 h2 (by rw [← h.1]; exact hv)
                rw [fit_checked c o X n h1 h2 hv, hg, h.1, he]
                exact ⟨rfl, rfl, Or.inl ⟨n, rfl⟩⟩
            obtain ⟨h1, h2, h3⟩ := hattr
            refine ⟨h2.trans h.1, ?_⟩
            have hh := h.2
            cases ht : t.2 with
            | none =>
                rw [ht] at hh
                dsimp only at hh ⊢
                rw [h1]
                exact hh
            | some q =>
                rw [ht] at hh
                obtain ⟨⟨n, hn⟩, a, ha1, ha2⟩ := hh
                refine ⟨?_, a, by rw [h1]; exact ha1, ha2⟩
                rcases h3 with h3 | h3
                · exact h3
                · exact ⟨n, h3.trans hn⟩

/-- `fit` succeeds exactly if the collection, the parameters and the computation are fine. -/
theorem fit_ok_iff (Acc : P → D → Prop) (g : P → D → PyM A) (hg : ∀ p X s, c.learn p X s = store (g p X) s)
    (hacc : ∀ p X, Acc p X → (∃ n, c.array X = .ok n ∧ n ≤ 3) ∧ c.validate p = .ok () ∧ ∃ a, g p X = .ok a)
    (hrej : ∀ p X, ¬ Acc p X → ∀ n, c.array X = .ok n → n ≤ 3 → c.validate p = .ok () → ∃ e, g p X = .error e) (o : Obj P (Option A)) (X : D) :
    (fit c o X).2 = .ok () ↔ Acc o.params X := by
  constructor
  · intro h
    by_contra ha
    by_cases hr : ∀ n, c.array X = .ok n → 3 < n ∨ ∃ e, c.validate o.params = .error e
    · obtain ⟨⟨e, he⟩, _⟩ := fit_refused c o X hr
      rw [he] at h
      cases h
    · push Not at hr
      obtain ⟨n, h1, h2, h3⟩ := hr
      have hv : c.validate o.params = .ok () := by
        cases hv : c.validate o.params with
        | error e => exact absurd hv (h3 e)
        | ok u => rfl
      obtain ⟨e, he⟩ := hrej _ _ ha n h1 h2 hv
      rw [fit_checked c o X n h1 h2 hv, hg, he] at h
      cases h
  · intro ha
    obtain ⟨⟨n, h1, h3⟩, h2, a, h4⟩ := hacc _ _ ha
    rw [fit_checked c o X n h1 h3 h2, hg, h4]
    rfl

theorem no_attr (o : Obj P (Option A)) (ho : o.attrs = none) (hb : ∀ p n nJobs X, c.body p n none nJobs X = .error .attributeError) (nJobs : Nat) (X : D) :
    ∃ e, transform c o nJobs X = .error e := by
  unfold transform
  cases o.nDims with
  | none => exact ⟨_, rfl⟩
  | some n =>
      dsimp only
      cases hX : c.array X with
      | error e => exact ⟨e, rfl⟩
      | ok m => exact ⟨.attributeError, by rw [ho]; exact hb _ _ _ _⟩

end

/-! ### The classes -/

section

variable {K : Type} [Field K] [LinearOrder K] [IsStrictOrderedRing K]

theorem hasPixel_iff (shape : List Nat) : HasPixel shape ↔ inds shape ≠ [] := by
  constructor
  · rintro ⟨p, hp⟩
    exact List.ne_nil_of_mem ((mem_inds p shape).2 hp)
  · intro h
    obtain ⟨p, t, ht⟩ := List.exists_cons_of_ne_nil h
    exact ⟨p, (mem_inds p shape).1 (by rw [ht]; exact List.mem_cons_self)⟩

theorem supported_check {shape : List Nat} {n : Nat} (h : Supported shape n) : ∃ m, checkArray shape n = .ok m ∧ m ≤ 3 := ⟨_, checkArray_ok h.1, h.2⟩

theorem check_supported {shape : List Nat} {n m : Nat} (h : checkArray shape n = .ok m) (h3 : m ≤ 3) : Supported shape n := by
  by_cases hc : IsCollection shape n
  · rw [checkArray_ok hc] at h
    injection h with h
    exact ⟨hc, by omega⟩
  · rw [checkArray_error hc] at h
    cases h

theorem pixels_nil {shape : List Nat} (h : ¬ HasPixel shape) (X : List (Img K)) : pixels shape X = [] := by
  rw [hasPixel_iff, not_not] at h
  unfold pixels
  rw [h]
  induction X with
  | nil => rfl
  | cons x X ih => simp

/-- Acceptable for `Binarizer`. -/
def BinAcc (t : K) (X : Batch K) : Prop := Supported X.shape X.images.length ∧ HasPixel X.shape ∧ 0 < t ∧ t ≤ 1

theorem bin_acc (t : K) (X : Batch K) (h : BinAcc t X) : (∃ n, (binarizerCls (K := K)).array X = .ok n ∧ n ≤ 3) ∧ (binarizerCls (K := K)).validate t = .ok () ∧
    ∃ m, binarizerFit X.shape X.images = .ok m ∧ IsGreatest (PixelValues X) m := by
  obtain ⟨h1, ⟨p, hp⟩, h3, h4⟩ := h
  refine ⟨supported_check h1, if_pos ⟨h3, h4⟩, ?_⟩
  obtain ⟨x, l, hx⟩ := List.exists_cons_of_length_pos (Nat.pos_of_ne_zero h1.1.2.1)
  exact C55_fit_max X.shape h1.2 X.images x (by rw [hx]; exact List.mem_cons_self) p hp

theorem bin_rej (t : K) (X : Batch K) (h : ¬ BinAcc t X) (n : Nat) (hn : (binarizerCls (K := K)).array X = .ok n) (h3 : n ≤ 3) (hv : (binarizerCls (K := K)).validate t = .ok ()) :
    ∃ e, binarizerFit X.shape X.images = .error e := by
  have ht : 0 < t ∧ t ≤ 1 := by
    by_contra ht
    change (if 0 < t ∧ t ≤ 1 then (Except.ok () : PyM Unit) else .error .valueError) = _ at hv
    rw [if_neg ht] at hv
    cases hv
  have hs := check_supported hn h3
  have hp : ¬ HasPixel X.shape := fun hp => h ⟨hs, hp, ht⟩
  refine ⟨.valueError, ?_⟩
  unfold binarizerFit
  rw [checkDims_ok hs.2, pixels_nil hp]
  rfl

/-- Acceptable for `Inverter`. -/
def InvAcc (p : Option (MaxVal K)) (X : CBatch K) : Prop :=
  Supported X.shape (numberOfImages X.coll) ∧ (p = none → (∃ l, X.coll = .nums l) → HasPixel X.shape)

/-- What `Inverter` remembers: the given value, or whether images are boolean, or the largest training pixel. -/
def InvLearned (p : Option (MaxVal K)) (X : CBatch K) (m : MaxVal K) : Prop :=
  (∀ v, p = some v → m = v) ∧ (p = none → (∀ l, X.coll = .bools l → m = .bool true) ∧ ∀ l, X.coll = .nums l → ∃ v, m = .num v ∧ IsGreatest (PixelValues ⟨X.shape, l⟩) v)

theorem inv_acc (p : Option (MaxVal K)) (X : CBatch K) (h : InvAcc p X) : (∃ n, (inverterCls (K := K)).array X = .ok n ∧ n ≤ 3) ∧ (inverterCls (K := K)).validate p = .ok () ∧
    ∃ m, inverterFit X.shape p X.coll = .ok m ∧ InvLearned p X m := by
  obtain ⟨h1, h2⟩ := h
  refine ⟨supported_check h1, rfl, ?_⟩
  unfold inverterFit
  rw [checkDims_ok h1.2]
  cases p with
  | some v =>
      refine ⟨v, rfl, ?_, ?_⟩
      · intro w hw
        injection hw
      · intro h
        cases h
  | none =>
      cases hc : X.coll with
      | bools l =>
          refine ⟨.bool true, rfl, ?_, ?_⟩
          · intro w hw
            cases hw
          · intro _
            refine ⟨fun _ _ => rfl, ?_⟩
            intro l' h'
            rw [hc] at h'
            cases h'
      | nums l =>
          obtain ⟨q, hq⟩ := h2 rfl ⟨l, hc⟩
          have hl : l ≠ [] := by
            have := h1.1.2.1
            unfold numberOfImages at this
            rw [hc] at this
            exact fun h => this (by rw [h]; rfl)
          obtain ⟨x, t, rfl⟩ := List.exists_cons_of_ne_nil hl
          obtain ⟨m, hm1, hm2⟩ := C55_fit_max X.shape h1.2 (x :: t) x List.mem_cons_self q hq
          unfold binarizerFit at hm1
          rw [checkDims_ok h1.2] at hm1
          have hm1' : Gtda.Diagrams.npMax (pixels X.shape (x :: t)) = .ok m := hm1
          refine ⟨.num m, ?_, ?_, ?_⟩
          · change (Gtda.Diagrams.npMax (pixels X.shape (x :: t)) >>= fun m => pure (MaxVal.num m)) = _
            rw [hm1']
            rfl
          · intro w hw
            cases hw
          · intro _
            refine ⟨?_, ?_⟩
            · intro l' h'
              rw [hc] at h'
              cases h'
            · intro l' h'
              rw [hc] at h'
              injection h' with h'
              subst h'
              exact ⟨m, rfl, hm2⟩

theorem inv_rej (p : Option (MaxVal K)) (X : CBatch K) (h : ¬ InvAcc p X) (n : Nat) (hn : (inverterCls (K := K)).array X = .ok n) (h3 : n ≤ 3)
    (_ : (inverterCls (K := K)).validate p = .ok ()) : ∃ e, inverterFit X.shape p X.coll = .error e := by
  have hs := check_supported hn h3
  have h' : p = none ∧ (∃ l, X.coll = .nums l) ∧ ¬ HasPixel X.shape := by
    by_contra hh
    apply h
    refine ⟨hs, fun h1 h2 => ?_⟩
    by_contra h3
    exact hh ⟨h1, h2, h3⟩
  obtain ⟨rfl, ⟨l, hl⟩, hp⟩ := h'
  refine ⟨.valueError, ?_⟩
  unfold inverterFit
  rw [checkDims_ok hs.2, hl]
  change (Gtda.Diagrams.npMax (pixels X.shape l) >>= fun m => pure (MaxVal.num m)) = _
  rw [pixels_nil hp]
  rfl

/-- Acceptable for `Padder`. -/
def PadAcc (p : Option (List Int) × K) (X : TBatch K) : Prop := Supported X.shape X.images.length ∧ ∀ w, p.1 = some w → w.length = X.shape.length

theorem pad_acc [FloorRing K] (p : Option (List Int) × K) (X : TBatch K) (h : PadAcc p X) : (∃ n, (padderCls (K := K)).array X = .ok n ∧ n ≤ 3) ∧ (padderCls (K := K)).validate p = .ok () ∧
    ∃ w, padderFit X.shape p.1 = .ok w ∧ (w = p.1.getD (List.replicate X.shape.length 1) ∧ w.length = X.shape.length) := by
  refine ⟨supported_check h.1, rfl, ?_⟩
  obtain ⟨h1, h2⟩ := C57_fit X.shape h.1.2
  cases hp : p.1 with
  | none => exact ⟨_, h1, rfl, by simp⟩
  | some w => exact ⟨w, by rw [h2, if_pos (h.2 w hp)], rfl, h.2 w hp⟩

theorem pad_rej [FloorRing K] (p : Option (List Int) × K) (X : TBatch K) (h : ¬ PadAcc p X) (n : Nat) (hn : (padderCls (K := K)).array X = .ok n) (h3 : n ≤ 3)
    (_ : (padderCls (K := K)).validate p = .ok ()) : ∃ e, padderFit X.shape p.1 = .error e := by
  have hs := check_supported hn h3
  have h' : ∃ w, p.1 = some w ∧ w.length ≠ X.shape.length := by
    by_contra hh
    push Not at hh
    exact h ⟨hs, hh⟩
  obtain ⟨w, hw, hl⟩ := h'
  exact ⟨.valueError, by rw [hw, (C57_fit X.shape hs.2).2 w, if_neg hl]⟩

/-- Acceptable for the filtrations by dilation. -/
def IterAcc (n : Option Int) (X : Batch K) : Prop := Supported X.shape X.images.length ∧ ∀ k, n = some k → 1 ≤ k

theorem iter_acc (k : Kind) (n : Option Int) (X : Batch K) (h : IterAcc n X) : (∃ m, (iterCls (K := K) k).array X = .ok m ∧ m ≤ 3) ∧ (iterCls (K := K) k).validate n = .ok () ∧
    ∃ f, iterFit (n.map Int.toNat) X.shape = .ok f ∧ (f = ⟨(n.map Int.toNat).getD X.shape.sum, X.shape.sum⟩) := by
  refine ⟨supported_check h.1, ?_, ?_⟩
  · change (if _ then _ else _) = _
    rw [if_neg]
    cases n with
    | none => simp
    | some k => have := h.2 k rfl; simp; omega
  · refine ⟨_, ?_, rfl⟩
    unfold iterFit
    rw [checkDims_ok h.1.2]
    rfl

theorem iter_rej (k : Kind) (n : Option Int) (X : Batch K) (h : ¬ IterAcc n X) (m : Nat) (hn : (iterCls (K := K) k).array X = .ok m) (h3 : m ≤ 3)
    (hv : (iterCls (K := K) k).validate n = .ok ()) : ∃ e, iterFit (n.map Int.toNat) X.shape = .error e := by
  exfalso
  apply h
  refine ⟨check_supported hn h3, ?_⟩
  rintro k rfl
  by_contra hk
  change (if _ then _ else _) = _ at hv
  rw [if_pos (by simp; omega)] at hv
  cases hv

/-- The value of a pixel after a dilation that was fitted on other images. -/
theorem dilated_any {shape : List Nat} {x : Img K} (hx : IsBinary shape x) (N M : Nat) {p : List Nat} (hp : IsPixel shape p) :
    let y := (List.range' 1 (min N M + 1 - 1)).foldl (pass shape (1 : K)) x
    let v := if y p = 0 then ((M : Nat) : K) else y p - 1
    (∀ d, IsGridDist shape (fun q => x q = 1) p d → d ≤ min N M → v = (d : K)) ∧ ((∀ d, IsGridDist shape (fun q => x q = 1) p d → min N M < d) → v = (M : K)) := by
  classical
  intro y v
  have hR : Reached shape (1 : K) (fun p => x p = 1) (min N M) y := dilate_reached shape 1 zero_le_one x hx _ _
  constructor
  · intro d hg hd
    by_cases hA : x p = 1
    · have h0 : d = 0 := by
        have h1 := hg.2 p hp hA
        rw [manhattan_self] at h1
        omega
      have hy := hR.active p hp hA
      subst h0
      simp [v, hy]
    · have hy := hR.reached p hp hA d hd hg
      have : y p ≠ 0 := by
        rw [hy]
        positivity
      simp only [v, if_neg this, hy]
      ring
  · intro hno
    have hw : ¬ Within shape (fun p => x p = 1) (min N M) p := by
      intro hw
      obtain ⟨d, hd, hg⟩ := exists_gridDist hw
      have := hno d hg
      omega
    simp only [v, if_pos (hR.other p hp hw)]

theorem not_iff (x : Img K) (q : Idx) : ((if x q = 0 then (1 : K) else 0) = 1) ↔ x q = 0 := by
  split <;> simp [*]

theorem signed_any {shape : List Nat} {x : Img K} (hx : IsBinary shape x) (N M : Nat) {p : List Nat} (hp : IsPixel shape p) :
    let v := signedPixel M (x p) (-((List.range' 1 (min N M + 1 - 1)).foldl (pass shape (0 : K)) x p))
      ((List.range' 0 (min N M + 1 - 0)).foldl (pass shape 0) (fun p => if x p = 0 then (1 : K) else 0) p)
    (x p = 1 → (∀ d, IsGridDist shape (fun q => x q = 0) p d → d ≤ min N M → v = (d : K) - 1) ∧ ((∀ d, IsGridDist shape (fun q => x q = 0) p d → min N M < d) → v = (M : K))) ∧
      (x p = 0 → (∀ d, IsGridDist shape (fun q => x q = 1) p d → d ≤ min N M → v = -(d : K)) ∧ ((∀ d, IsGridDist shape (fun q => x q = 1) p d → min N M < d) → v = -(M : K))) := by
  classical
  intro v
  set z : Img K := fun p => if x p = 0 then (1 : K) else 0 with hz
  have hzb : IsBinary shape z := isBinary_not
  have hziff : ∀ q, z q = 1 ↔ x q = 0 := not_iff x
  have hRd : Reached shape (0 : K) (fun p => x p = 1) (min N M) ((List.range' 1 (min N M + 1 - 1)).foldl (pass shape 0) x) := dilate_reached shape 0 le_rfl x hx _ _
  have hRe : Reached shape (0 : K) (fun p => x p = 0) (min N M) ((List.range' 0 (min N M + 1 - 0)).foldl (pass shape 0) z) := by
    have h0 := dilate_reached shape (0 : K) le_rfl z hzb N M
    simp only [hziff] at h0
    rw [show min N M + 1 - 0 = min N M + 1 from rfl, List.range'_succ, List.foldl_cons, pass_zero hzb]
    exact h0
  have hnw : ∀ (A : List Nat → Prop), (∀ d, IsGridDist shape A p d → min N M < d) → ¬ Within shape A (min N M) p := by
    intro A hno hw
    obtain ⟨d, hd, hg⟩ := exists_gridDist hw
    have := hno d hg
    omega
  set yd := (List.range' 1 (min N M + 1 - 1)).foldl (pass shape (0 : K)) x with hyd
  set ye := (List.range' 0 (min N M + 1 - 0)).foldl (pass shape (0 : K)) z with hye
  have hv : v = signedPixel M (x p) (-(yd p)) (ye p) := rfl
  constructor
  · intro h1
    have hx0 : ¬ x p = 0 := by rw [h1]; exact one_ne_zero
    have hd1 : yd p = 1 := hRd.active p hp h1
    constructor
    · intro d hg hN
      have he := hRe.reached p hp hx0 d hN hg
      have hdpos : (d : K) ≠ 0 := by exact_mod_cast (gridDist_pos hp hx0 hg).ne'
      simp only [add_zero] at he
      rw [hv]
      unfold signedPixel
      simp [h1, hd1, he, hdpos]
    · intro hno
      have he := hRe.other p hp (hnw _ hno)
      rw [hv]
      unfold signedPixel
      simp [h1, hd1, he]
  · intro h0
    have hx1 : ¬ x p = 1 := by rw [h0]; exact zero_ne_one
    have he1 : ye p = 1 := hRe.active p hp h0
    constructor
    · intro d hg hN
      have hd := hRd.reached p hp hx1 d hN hg
      have hdpos : (d : K) ≠ 0 := by exact_mod_cast (gridDist_pos hp hx1 hg).ne'
      simp only [add_zero] at hd
      rw [hv]
      unfold signedPixel
      simp [h0, hd, he1, hdpos]
    · intro hno
      have hd := hRd.other p hp (hnw _ hno)
      rw [hv]
      unfold signedPixel
      simp [h0, hd, he1]

end

end Gtda.Props.ImageObject

namespace Gtda.Props

open Gtda.Py Gtda.Images Gtda.ImageObject Gtda.Spec.Images Gtda.Spec.ImageObject Gtda.Props.ImageObject

/-- **C129** For every class of image transformers: as long as no `fit` was called with something that is a collection of arrays, `transform` raises `NotFittedError`. -/
theorem C129_not_fitted {P S D O : Type} (c : Cls P S D O) (p : P) (s : S) (ops : List (Op P D)) (h : NoFit (fun X => ∃ n, c.array X = .ok n) ops) (nJobs : Nat) (X' : D) :
    transform c (run c ⟨p, none, s⟩ ops) nJobs X' = .error .notFitted := by
  unfold transform
  rw [noFit_run c ops _ rfl h]

section

variable {K : Type} [Field K] [LinearOrder K] [IsStrictOrderedRing K]

/-- **C129** `fit` accepts exactly collections of images with at most three axes, with a pixel where the largest one is looked for, and parameters in the documented range, whatever happened to the
object before: `Binarizer` (threshold above 0, at most 1), `Inverter`, `Padder` (one width per axis) and the filtrations by dilation (at least one iteration). -/
theorem C129_accepts [FloorRing K] :
    (∀ (o : Obj K (Option K)) (X : Batch K), (fit binarizerCls o X).2 = .ok () ↔
      Supported X.shape X.images.length ∧ HasPixel X.shape ∧ 0 < o.params ∧ o.params ≤ 1) ∧
    (∀ (o : Obj (Option (MaxVal K)) (Option (MaxVal K))) (X : CBatch K), (fit inverterCls o X).2 = .ok () ↔
      Supported X.shape (numberOfImages X.coll) ∧ (o.params = none → (∃ l, X.coll = .nums l) → HasPixel X.shape)) ∧
    (∀ (o : Obj (Option (List Int) × K) (Option (List Int))) (X : TBatch K), (fit padderCls o X).2 = .ok () ↔
      Supported X.shape X.images.length ∧ ∀ w, o.params.1 = some w → w.length = X.shape.length) ∧
    (∀ (k : Kind) (o : Obj (Option Int) (Option IterFitted)) (X : Batch K), (fit (iterCls k) o X).2 = .ok () ↔
      Supported X.shape X.images.length ∧ ∀ n, o.params = some n → 1 ≤ n) := by
  refine ⟨fun o X => ?_, fun o X => ?_, fun o X => ?_, fun k o X => ?_⟩
  · refine fit_ok_iff binarizerCls BinAcc (fun _ X => binarizerFit X.shape X.images) (fun _ _ _ => rfl) (fun p X h => ?_) bin_rej o X
    obtain ⟨h1, h2, m, h3, _⟩ := bin_acc p X h
    exact ⟨h1, h2, m, h3⟩
  · refine fit_ok_iff inverterCls InvAcc (fun p X => inverterFit X.shape p X.coll) (fun _ _ _ => rfl) (fun p X h => ?_) inv_rej o X
    obtain ⟨h1, h2, m, h3, _⟩ := inv_acc p X h
    exact ⟨h1, h2, m, h3⟩
  · refine fit_ok_iff padderCls PadAcc (fun p X => padderFit X.shape p.1) (fun _ _ _ => rfl) (fun p X h => ?_) pad_rej o X
    obtain ⟨h1, h2, m, h3, _⟩ := pad_acc p X h
    exact ⟨h1, h2, m, h3⟩
  · refine fit_ok_iff (iterCls k) IterAcc (fun p X => iterFit (p.map Int.toNat) X.shape) (fun _ _ _ => rfl) (fun p X h => ?_) (iter_rej k) o X
    obtain ⟨h1, h2, m, h3, _⟩ := iter_acc k p X h
    exact ⟨h1, h2, m, h3⟩

/-- **C129** `Binarizer` after any history. Without an acceptable `fit`, `transform` raises. Otherwise, `m` being the largest pixel of the collection of the last acceptable `fit`, a pixel of any image
of any shape becomes True exactly if it exceeds `m` times the present threshold (`m` positive), whatever was refused since and for every number of jobs. -/
theorem C129_binarizer (t0 : K) (ops : List (Op K (Batch K))) (nJobs : Nat) (hn : 1 ≤ nJobs) (X' : Batch K) (hX' : IsCollection X'.shape X'.images.length) :
    match after (fun t X => Supported X.shape X.images.length ∧ HasPixel X.shape ∧ 0 < t ∧ t ≤ 1) (t0, none) ops with
    | (_, none) => ∃ e, transform binarizerCls (run binarizerCls ⟨t0, none, none⟩ ops) nJobs X' = .error e
    | (t, some (_, X)) => ∃ m, IsGreatest (PixelValues X) m ∧ ∃ Y, transform binarizerCls (run binarizerCls ⟨t0, none, none⟩ ops) nJobs X' = .ok Y ∧ Y.length = X'.images.length ∧
        (0 < m → ∀ (i : Nat) x, X'.images[i]? = some x → ∃ y, Y[i]? = some y ∧ ∀ p, y p = true ↔ t * m < x p) := by
  have h := run_agrees binarizerCls BinAcc (fun _ X m => IsGreatest (PixelValues X) m) (fun _ X => binarizerFit X.shape X.images) (fun _ _ _ => rfl) bin_acc bin_rej ops
    ⟨t0, none, none⟩ (t0, none) ⟨rfl, rfl⟩
  change match after BinAcc (t0, none) ops with | (_, none) => _ | (t, some (_, X)) => _
  revert h
  generalize run binarizerCls ⟨t0, none, none⟩ ops = o
  generalize after BinAcc (t0, none) ops = t
  intro h
  obtain ⟨t, q⟩ := t
  cases q with
  | none => exact no_attr binarizerCls o h.2 (fun _ _ _ _ => rfl) nJobs X'
  | some q =>
      obtain ⟨h1, ⟨n, h2⟩, m, h3, h4⟩ := h
      refine ⟨m, h4, binarizerTransform m t nJobs X'.images, ?_, ?_, ?_⟩
      · rw [transform_ok binarizerCls o n _ h2 nJobs X' (checkArray_ok hX'), h3, h1]
        rfl
      · unfold binarizerTransform
        rw [Gtda.Props.C17_njobs_map _ nJobs hn, List.length_map]
      · intro hm i x hi
        exact C55_threshold m t hm nJobs hn X'.images i x hi

/-- **C129** `Inverter` after any history: without an acceptable `fit`, `transform` raises. Otherwise, if `max_value` was not given at the time of the last acceptable `fit` and its images were boolean,
boolean images are negated; if they were numbers, of which `m` was the largest, or `max_value` was the number `m`, pixels `x` of numeric images become `m - x`. Changing `max_value` after `fit`
changes nothing. -/
theorem C129_inverter (p0 : Option (MaxVal K)) (ops : List (Op (Option (MaxVal K)) (CBatch K))) (nJobs : Nat) (hn : 1 ≤ nJobs) (X' : CBatch K) (hX' : IsCollection X'.shape (numberOfImages X'.coll)) :
    match after (fun p X => Supported X.shape (numberOfImages X.coll) ∧ (p = none → (∃ l, X.coll = .nums l) → HasPixel X.shape)) (p0, none) ops with
    | (_, none) => ∃ e, transform inverterCls (run inverterCls ⟨p0, none, none⟩ ops) nJobs X' = .error e
    | (_, some (q, X)) =>
        (∀ F Y, q = none → X.coll = .bools F → X'.coll = .bools Y →
          transform inverterCls (run inverterCls ⟨p0, none, none⟩ ops) nJobs X' = .ok (.bools (Y.map fun y p => !(y p)))) ∧
        (∀ F Y, q = none → X.coll = .nums F → X'.coll = .nums Y → ∃ m, IsGreatest (PixelValues ⟨X.shape, F⟩) m ∧
          transform inverterCls (run inverterCls ⟨p0, none, none⟩ ops) nJobs X' = .ok (.nums (Y.map fun y p => m - y p))) ∧
        (∀ m Y, q = some (.num m) → X'.coll = .nums Y →
          transform inverterCls (run inverterCls ⟨p0, none, none⟩ ops) nJobs X' = .ok (.nums (Y.map fun y p => m - y p))) := by
  have h := run_agrees inverterCls InvAcc InvLearned (fun p X => inverterFit X.shape p X.coll) (fun _ _ _ => rfl) inv_acc inv_rej ops ⟨p0, none, none⟩ (p0, none) ⟨rfl, rfl⟩
  change match after InvAcc (p0, none) ops with | (_, none) => _ | (_, some (q, X)) => _
  revert h
  generalize run inverterCls ⟨p0, none, none⟩ ops = o
  generalize after InvAcc (p0, none) ops = t
  intro h
  obtain ⟨t, q⟩ := t
  cases q with
  | none => exact no_attr inverterCls o h.2 (fun _ _ _ _ => rfl) nJobs X'
  | some q =>
      obtain ⟨q, X⟩ := q
      obtain ⟨h1, ⟨n, h2⟩, m, h3, h4, h5⟩ := h
      have e : transform inverterCls o nJobs X' = inverterTransform nJobs m X'.coll := by
        rw [transform_ok inverterCls o n _ h2 nJobs X' (checkArray_ok hX'), h3]
        rfl
      dsimp only
      rw [e]
      refine ⟨?_, ?_, ?_⟩
      · intro F Y hq hF hY
        rw [(h5 hq).1 F hF, hY]
        change Except.ok _ = _
        rw [Gtda.Props.C17_njobs_map _ nJobs hn]
      · intro F Y hq hF hY
        obtain ⟨v, rfl, hv⟩ := (h5 hq).2 F hF
        refine ⟨v, hv, ?_⟩
        rw [hY]
        change Except.ok _ = _
        rw [Gtda.Props.C17_njobs_map _ nJobs hn]
      · intro v Y hq hY
        rw [h4 _ hq, hY]
        change Except.ok _ = _
        rw [Gtda.Props.C17_njobs_map _ nJobs hn]

/-- **C129** `Padder` after any history: without an acceptable `fit`, `transform` raises. Otherwise images with as many axes as those of the last acceptable `fit`, of any shape, get a border of the
widths at the time of that `fit` (1 by default), filled with the present value (which the dtype of the images must be able to represent); images with another number of axes are refused. -/
theorem C129_padder [FloorRing K] (p0 : Option (List Int) × K) (ops : List (Op (Option (List Int) × K) (TBatch K))) (nJobs : Nat) (hn : 1 ≤ nJobs) (X' : TBatch K)
    (hX' : IsCollection X'.shape X'.images.length) :
    match after (fun p X => Supported X.shape X.images.length ∧ ∀ w, p.1 = some w → w.length = X.shape.length) (p0, none) ops with
    | (_, none) => ∃ e, transform padderCls (run padderCls ⟨p0, none, none⟩ ops) nJobs X' = .error e
    | (p, some (q, X)) =>
        (X'.shape.length ≠ X.shape.length → transform padderCls (run padderCls ⟨p0, none, none⟩ ops) nJobs X' = .error .valueError) ∧
        (∀ ws : List Nat, (q.1 = some (ws.map fun (w : Nat) => (w : Int)) ∨ (q.1 = none ∧ ws = List.replicate X.shape.length 1)) → X'.shape.length = X.shape.length → Representable X'.dtype p.2 →
          ∃ shape' Y, transform padderCls (run padderCls ⟨p0, none, none⟩ ops) nJobs X' = .ok (shape', Y) ∧ shape' = List.zipWith (fun d w => d + 2 * w) X'.shape ws ∧
            ∀ (i : Nat) x, X'.images[i]? = some x → ∃ y, Y[i]? = some y ∧ (∀ p, IsPixel X'.shape p → y (List.zipWith (· + ·) p ws) = x p) ∧
              (∀ r, (∀ p, IsPixel X'.shape p → r ≠ List.zipWith (· + ·) p ws) → y r = p.2)) := by
  have h := run_agrees padderCls PadAcc (fun p X w => w = p.1.getD (List.replicate X.shape.length 1) ∧ w.length = X.shape.length) (fun p X => padderFit X.shape p.1) (fun _ _ _ => rfl)
    pad_acc pad_rej ops ⟨p0, none, none⟩ (p0, none) ⟨rfl, rfl⟩
  change match after PadAcc (p0, none) ops with | (_, none) => _ | (p, some (q, X)) => _
  revert h
  generalize run padderCls ⟨p0, none, none⟩ ops = o
  generalize after PadAcc (p0, none) ops = t
  intro h
  obtain ⟨t, q⟩ := t
  cases q with
  | none => exact no_attr padderCls o h.2 (fun _ _ _ _ => rfl) nJobs X'
  | some q =>
      obtain ⟨q, X⟩ := q
      obtain ⟨h1, ⟨n, h2⟩, w, h3, h4, h5⟩ := h
      have e : transform padderCls o nJobs X' = if w.length ≠ X'.shape.length then .error .valueError else padderTransform X'.dtype w t.2 nJobs X'.shape X'.images := by
        rw [transform_ok padderCls o n _ h2 nJobs X' (checkArray_ok hX'), h3, h1]
        rfl
      dsimp only
      rw [e]
      refine ⟨?_, ?_⟩
      · intro hl
        rw [if_pos (by omega)]
      · intro ws hw hl hv
        have hww : w = ws.map fun (w : Nat) => (w : Int) := by
          rcases hw with hw | ⟨hw, rfl⟩
          · rw [h4, hw]
            rfl
          · rw [h4, hw]
            simp
        have hwl : ws.length = X'.shape.length := by
          have : w.length = ws.length := by rw [hww, List.length_map]
          omega
        rw [if_neg (by omega), hww]
        exact C57_pad_partial X'.dtype ws X'.shape hwl t.2 hv nJobs hn X'.images

/-- **C129** The filtrations by dilation after any history: without an acceptable `fit`, `transform` raises. Otherwise, for binary images of any shape, `k` being the least of `n_iterations` at the time
of the last acceptable `fit` (no limit by default) and of the sum `M` of the side lengths of the images of that `fit`: `DilationFiltration` gives each pixel its grid distance to the nearest active pixel
if this is at most `k`, and `M` otherwise; `ErosionFiltration` the same with inactive pixels; `SignedDistanceFiltration` gives active pixels the distance to the nearest inactive one less 1 (`M` beyond
`k`), inactive ones minus the distance to the nearest active one (`-M` beyond `k`). -/
theorem C129_dilations (kind : Kind) (n0 : Option Int) (ops : List (Op (Option Int) (Batch K))) (nJobs : Nat) (hn : 1 ≤ nJobs) (X' : Batch K)
    (hX' : IsCollection X'.shape X'.images.length) :
    match after (fun n X => Supported X.shape X.images.length ∧ ∀ k, n = some k → 1 ≤ k) (n0, none) ops with
    | (_, none) => ∃ e, transform (iterCls kind) (run (iterCls kind) ⟨n0, none, none⟩ ops) nJobs X' = .error e
    | (_, some (n, X)) => ∃ Y, transform (iterCls kind) (run (iterCls kind) ⟨n0, none, none⟩ ops) nJobs X' = .ok Y ∧ Y.length = X'.images.length ∧
        ∀ (i : Nat) x, X'.images[i]? = some x → IsBinary X'.shape x → ∃ y, Y[i]? = some y ∧ ∀ p, IsPixel X'.shape p →
          match kind with
          | .dilation => (∀ d, IsGridDist X'.shape (fun q => x q = 1) p d → d ≤ cutoff n X.shape → y p = (d : K)) ∧
              ((∀ d, IsGridDist X'.shape (fun q => x q = 1) p d → cutoff n X.shape < d) → y p = (X.shape.sum : K))
          | .erosion => (∀ d, IsGridDist X'.shape (fun q => x q = 0) p d → d ≤ cutoff n X.shape → y p = (d : K)) ∧
              ((∀ d, IsGridDist X'.shape (fun q => x q = 0) p d → cutoff n X.shape < d) → y p = (X.shape.sum : K))
          | .signed =>
              (x p = 1 → (∀ d, IsGridDist X'.shape (fun q => x q = 0) p d → d ≤ cutoff n X.shape → y p = (d : K) - 1) ∧
                ((∀ d, IsGridDist X'.shape (fun q => x q = 0) p d → cutoff n X.shape < d) → y p = (X.shape.sum : K))) ∧
              (x p = 0 → (∀ d, IsGridDist X'.shape (fun q => x q = 1) p d → d ≤ cutoff n X.shape → y p = -(d : K)) ∧
                ((∀ d, IsGridDist X'.shape (fun q => x q = 1) p d → cutoff n X.shape < d) → y p = -(X.shape.sum : K))) := by
  have h := run_agrees (iterCls kind) IterAcc (fun n X f => f = ⟨(n.map Int.toNat).getD X.shape.sum, X.shape.sum⟩) (fun n X => iterFit (n.map Int.toNat) X.shape) (fun _ _ _ => rfl)
    (iter_acc (K := K) kind) (iter_rej kind) ops ⟨n0, none, none⟩ (n0, none) ⟨rfl, rfl⟩
  change match after IterAcc (n0, none) ops with | (_, none) => _ | (_, some (n, X)) => _
  revert h
  generalize run (iterCls kind) ⟨n0, none, none⟩ ops = o
  generalize after IterAcc (n0, none) ops = t
  intro h
  obtain ⟨t, q⟩ := t
  cases q with
  | none => exact no_attr (iterCls kind) o h.2 (fun _ _ _ _ => rfl) nJobs X'
  | some q =>
      obtain ⟨n, X⟩ := q
      obtain ⟨h1, ⟨m, h2⟩, f, h3, h4⟩ := h
      refine ⟨kind.calc f nJobs X'.shape X'.images, ?_, ?_⟩
      · rw [transform_ok (iterCls kind) o m _ h2 nJobs X' (checkArray_ok hX'), h3]
        rfl
      · have hcut : cutoff n X.shape = min f.nIterations f.maxValue := by rw [h4]; rfl
        have hmax : X.shape.sum = f.maxValue := by rw [h4]
        rw [hcut, hmax]
        cases kind with
        | dilation =>
            have hF : calcDilation (K := K) f X'.shape = List.map _ := funext (calcDilation_eq f X'.shape)
            unfold Kind.calc dilationTransform
            rw [hF, Gtda.Props.C17_njobs_map _ nJobs hn]
            refine ⟨List.length_map _, ?_⟩
            intro i x hi hx
            rw [List.getElem?_map, hi]
            exact ⟨_, rfl, fun p hp => dilated_any hx f.nIterations f.maxValue hp⟩
        | erosion =>
            have hF : calcErosion (K := K) f X'.shape = List.map _ := funext (calcErosion_eq f X'.shape)
            unfold Kind.calc erosionTransform
            rw [hF, Gtda.Props.C17_njobs_map _ nJobs hn]
            refine ⟨List.length_map _, ?_⟩
            intro i x hi hx
            rw [List.getElem?_map, hi]
            refine ⟨_, rfl, fun p hp => ?_⟩
            have h := dilated_any (K := K) (isBinary_not (x := x)) f.nIterations f.maxValue hp
            have e2 : (fun q => (if x q = 0 then (1 : K) else 0) = 1) = fun q => x q = 0 := funext fun q => propext (not_iff x q)
            rw [e2] at h
            exact h
        | signed =>
            have hF : calcSignedDistance (K := K) f X'.shape = List.map _ := funext (calcSignedDistance_eq f X'.shape)
            unfold Kind.calc signedDistanceTransform
            rw [hF, Gtda.Props.C17_njobs_map _ nJobs hn]
            refine ⟨List.length_map _, ?_⟩
            intro i x hi hx
            rw [List.getElem?_map, hi]
            exact ⟨_, rfl, fun p hp => signed_any hx f.nIterations f.maxValue hp⟩

end

/-- Histories: an acceptable `fit` on 1×3 images, a change of the threshold to a value `fit` would refuse, and a `fit` that is refused; `transform` of a larger image. -/
example :
    let ops : List (Op ℚ (Batch ℚ)) := [.fit ⟨[], []⟩, .setParams (1 / 2), .fit ⟨[1, 3], [fun p => (p.getD 1 0 : ℚ)]⟩, .setParams (3 / 2), .fit ⟨[1, 1], [fun _ => 100]⟩]
    (transform binarizerCls (run binarizerCls ⟨7, none, none⟩ ops) 2 ⟨[2, 2], [fun p => (4 * p.getD 0 0 : ℚ), fun _ => 3]⟩).map (fun Y => Y.map fun y => (y [0, 0], y [1, 0])) =
      .ok [(false, true), (false, false)] := by decide +kernel

example :
    let ops : List (Op (Option Int) (Batch ℚ)) := [.fit ⟨[2, 2], [fun _ => 0]⟩, .setParams (some 0), .fit ⟨[9, 9], [fun _ => 0]⟩]
    (transform (iterCls (K := ℚ) .dilation) (run (iterCls (K := ℚ) .dilation) ⟨none, none, none⟩ ops) 1 ⟨[1, 7], [fun p => if p = [0, 0] then 1 else 0]⟩).map
      (fun Y => Y.map fun y => [y [0, 0], y [0, 3], y [0, 4], y [0, 6]]) = .ok [[0, 3, 4, 4]] := by decide +kernel

/-- **C129** is false in that without an acceptable `fit`, `transform` would raise `NotFittedError`: `fit` of a `Binarizer` with threshold 2 is refused, but afterwards `transform` raises
`AttributeError`. -/
theorem C129_refuted_not_fitted :
    let o := fit binarizerCls (⟨2, none, none⟩ : Obj ℚ (Option ℚ)) ⟨[1, 1], [fun _ => 1]⟩
    o.2 = .error .valueError ∧ (transform binarizerCls o.1 1 ⟨[1, 1], [fun _ => 1]⟩).map (fun Y => Y.map fun y => y [0, 0]) = .error .attributeError := by
  refine ⟨?_, ?_⟩ <;> decide +kernel

/-- **C129** "All pixels are reached" is false for images larger than those of `fit`, also with `n_iterations=None`: after a `fit` on images with one pixel, the end of a row of four pixels gets the
value 2 although the only active pixel is 3 steps away, the same value as its neighbour. -/
theorem C129_refuted_larger_images :
    (transform (iterCls (K := ℚ) .dilation) (fit (iterCls (K := ℚ) .dilation) (⟨none, none, none⟩ : Obj (Option Int) (Option IterFitted)) ⟨[1, 1], [fun _ => (1 : ℚ)]⟩).1 1
      ⟨[1, 4], [fun p => if p = [0, 0] then 1 else 0]⟩).map (fun Y => Y.map fun y => [y [0, 0], y [0, 1], y [0, 2], y [0, 3]]) = .ok [[0, 1, 2, 2]] := by decide +kernel

end Gtda.Props
