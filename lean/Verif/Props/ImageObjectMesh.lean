import Verif.Props.ImageObject
import Verif.Props.ImagesMesh
import Verif.Props.ImagesDensity

/-!
# C129: HeightFiltration, RadialFiltration and DensityFiltration as objects
-/

set_option autoImplicit false
set_option linter.unusedSectionVars false

namespace Gtda.Props.ImageObjectMesh

open Gtda.Py Gtda.Images Gtda.ImageObject Gtda.Spec.Images Gtda.Spec.ImageObject Gtda.Props.ImageObject

section

variable {P S D O : Type} (c : Cls P S D O)

theorem harmless_run (Refused : P → D → Prop) (Inv : Option Nat → Prop)
    (h : ∀ o X, Refused o.params X → Inv o.nDims → (fit c o X).1.attrs = o.attrs ∧ (fit c o X).1.params = o.params ∧ Inv (fit c o X).1.nDims) (ops : List (Op P D)) :
    ∀ o : Obj P S, Inv o.nDims → Harmless Refused o.params ops → (run c o ops).attrs = o.attrs ∧ Inv (run c o ops).nDims := by
  induction ops with
  | nil => intro o hi _; exact ⟨rfl, hi⟩
  | cons op ops ih =>
      intro o hi hh
      cases op with
      | setParams q => exact ih { o with params := q } hi hh
      | transform n X => exact ih o hi hh
      | fit X =>
          obtain ⟨h1, h2, h3⟩ := h o X hh.1 hi
          obtain ⟨h4, h5⟩ := ih (fit c o X).1 h3 (by rw [h2]; exact hh.2)
          exact ⟨h4.trans h1, h5⟩

theorem fit_refused' (o : Obj P S) (X : D) (h : ∀ n, c.array X = .ok n → 3 < n ∨ ∃ e, c.validate o.params = .error e) (hi : ∃ n, o.nDims = some n) :
    (fit c o X).1.attrs = o.attrs ∧ (fit c o X).1.params = o.params ∧ ∃ n, (fit c o X).1.nDims = some n := by
  obtain ⟨_, h1, h2, h3⟩ := fit_refused c o X h
  refine ⟨h1, h2, ?_⟩
  rcases h3 with ⟨n, h3, _⟩ | h3
  · exact ⟨n, h3⟩
  · rw [h3]
    exact hi

end

theorem not_supported {shape : List Nat} {k : Nat} (h : ¬ Supported shape k) : ∀ n, checkArray shape k = .ok n → 3 < n := by
  intro n hn
  by_cases hc : IsCollection shape k
  · rw [checkArray_ok hc] at hn
    obtain rfl : shape.length = n := by simpa using hn
    by_contra h3
    exact h ⟨hc, by omega⟩
  · rw [checkArray_error hc] at hn
    exact absurd hn (by simp)

section

variable {K : Type} [Field K] [LinearOrder K] [IsStrictOrderedRing K]

/-! ### height -/

theorem height_learn (unit : Nat → Option (List K) → List K) (p : Option (List K)) (X : Batch K) (s : HeightAttrs K) (f : HeightFitted K)
    (h : heightFitDir X.shape (unit X.shape.length p) = .ok f) :
    (heightCls unit).learn p X s = (⟨some f.direction, some (X.shape, f.mesh), some f.maxValue⟩, .ok ()) := by
  unfold heightFitDir at h
  unfold heightCls
  dsimp only
  cases hr : heightRanges X.shape (unit X.shape.length p) with
  | error e =>
      rw [hr] at h
      exact absurd h (by intro h; cases h)
  | ok ranges =>
      rw [hr, ok_bind] at h
      dsimp only
      by_cases hl : (unit X.shape.length p).length ≠ X.shape.length
      · rw [if_pos hl] at h
        exact absurd h (by intro h; cases h)
      · rw [if_neg hl] at h
        rw [if_neg hl]
        dsimp only at h
        cases hm : Gtda.Diagrams.npMax (pixels X.shape [calcHeight (unit X.shape.length p) (meshgridXY ranges) 0 (fun _ => 1)]) with
        | error e =>
            rw [hm] at h
            exact absurd h (by intro h; cases h)
        | ok m =>
            rw [hm, ok_bind] at h
            cases h
            rfl

theorem height_learn_ok (unit : Nat → Option (List K) → List K) (p : Option (List K)) (X : Batch K) (s : HeightAttrs K)
    (h : ((heightCls unit).learn p X s).2 = .ok ()) : ∃ f, heightFitDir X.shape (unit X.shape.length p) = .ok f := by
  unfold heightCls at h
  dsimp only at h
  unfold heightFitDir
  cases hr : heightRanges X.shape (unit X.shape.length p) with
  | error e =>
      rw [hr] at h
      exact absurd h (by intro h; cases h)
  | ok ranges =>
      rw [hr] at h
      dsimp only at h
      rw [ok_bind]
      by_cases hl : (unit X.shape.length p).length ≠ X.shape.length
      · rw [if_pos hl] at h
        exact absurd h (by intro h; cases h)
      · rw [if_neg hl] at h
        rw [if_neg hl]
        dsimp only
        cases hm : Gtda.Diagrams.npMax (pixels X.shape [calcHeight (unit X.shape.length p) (meshgridXY ranges) 0 (fun _ => 1)]) with
        | error e =>
            rw [hm] at h
            exact absurd h (by intro h; cases h)
        | ok m => exact ⟨_, rfl⟩

theorem heightFitDir_ok {shape : List Nat} {d : List K} {f : HeightFitted K} (h : heightFitDir shape d = .ok f) (h0 : shape ≠ []) :
    2 ≤ shape.length ∧ d.length = shape.length ∧ HasPixel shape := by
  unfold heightFitDir at h
  cases hr : heightRanges shape d with
  | error e =>
      rw [hr] at h
      exact absurd h (by intro h; cases h)
  | ok ranges =>
      rw [hr, ok_bind] at h
      by_cases hl : d.length ≠ shape.length
      · rw [if_pos hl] at h
        exact absurd h (by intro h; cases h)
      · rw [if_neg hl] at h
        dsimp only at h
        refine ⟨?_, by omega, ?_⟩
        · match shape, d, h0, hl, hr with
          | [n], [u], _, _, hr => exact absurd hr (by intro h; cases h)
          | [n], [], _, hl, _ => exact absurd (by simp) hl
          | _ :: _ :: _, _, _, _, _ => simp
        · cases hm : Gtda.Diagrams.npMax (pixels shape [calcHeight d (meshgridXY ranges) 0 (fun _ => 1)]) with
          | error e =>
              rw [hm] at h
              exact absurd h (by intro h; cases h)
          | ok m =>
              by_contra hp
              have : pixels shape [calcHeight d (meshgridXY ranges) 0 (fun _ => 1)] = [] := by
                by_contra hne
                obtain ⟨v, hv⟩ := List.exists_mem_of_ne_nil _ hne
                obtain ⟨_, _, q, hq, _⟩ := mem_pixels.1 hv
                exact hp ⟨q, hq⟩
              rw [this] at hm
              exact absurd hm (by intro h; cases h)

end

theorem unitDirection_length (n : Nat) (p : Option (List ℝ)) : (unitDirection n p).length = (p.getD (List.replicate n 1)).length := by
  unfold unitDirection
  simp


theorem forM_ok {α : Type} (g : α → PyM Unit) : ∀ l : List α, (∀ x ∈ l, g x = .ok ()) → l.forM g = .ok ()
  | [], _ => rfl
  | x :: l, h => by
      change (g x >>= fun _ => l.forM g) = _
      rw [h x List.mem_cons_self]
      exact forM_ok g l fun y hy => h y (List.mem_cons_of_mem _ hy)

theorem forM_head_error {α β : Type} (g : α → PyM Unit) (x : α) (l : List α) (k : PUnit → PyM β) (h : ∃ e, g x = .error e) : ∃ e, ((x :: l).forM g >>= k) = .error e := by
  obtain ⟨e, he⟩ := h
  refine ⟨e, ?_⟩
  change ((g x >>= fun _ => l.forM g) >>= k) = _
  rw [he]
  rfl

theorem forM_error {α : Type} (g : α → PyM Unit) (e : PyErr) : ∀ l : List α, (∀ x ∈ l, g x = .ok () ∨ g x = .error e) → (∃ x ∈ l, g x = .error e) → l.forM g = .error e
  | [], _, h => by obtain ⟨_, h, _⟩ := h; cases h
  | x :: l, h, h' => by
      change (g x >>= fun _ => l.forM g) = _
      rcases h x List.mem_cons_self with hx | hx
      · rw [hx]
        obtain ⟨y, hy, he⟩ := h'
        rcases List.mem_cons.1 hy with rfl | hy
        · rw [he] at hx
          cases hx
        · exact forM_error g e l (fun z hz => h z (List.mem_cons_of_mem _ hz)) ⟨y, hy, he⟩
      · rw [hx]
        rfl

/-! ### radial -/

section

variable {K : Type} [Field K] [LinearOrder K] [IsStrictOrderedRing K]

/-- The centre as a list of numbers. -/
def center (p : RadialParams K) : Option (List K) := p.center.map fun l => l.map fun (a : Int) => (a : K)

theorem radial_learn (p : RadialParams K) (X : Batch K) (s : RadialAttrs K) (dist : List K → List K → K) (hd : p.metric = some dist) (hp : HasPixel X.shape)
    (hs : X.shape.length ≤ 3) (f : RadialFitted K) (h : radialFit X.shape (center p) p.radius dist = .ok f) :
    radialCls.learn p X s = (⟨some (X.shape, f.mesh), some f.maxValue⟩, .ok ()) := by
  unfold radialFit at h
  rw [checkDims_ok hs] at h
  unfold radialCls
  dsimp only
  cases hr : radialRanges (K := K) X.shape with
  | error e =>
      rw [hr] at h
      exact absurd h (by intro h; cases h)
  | ok ranges =>
      rw [hr] at h
      dsimp only
      rw [hd]
      dsimp only
      change (if ((center p).getD (List.replicate X.shape.length 0)).length ≠ X.shape.length ∨ (inds X.shape).length = 0 then _ else _) = _
      change (if ((center p).getD (List.replicate X.shape.length 0)).length ≠ X.shape.length then _ else _) = _ at h
      by_cases hl : ((center p).getD (List.replicate X.shape.length 0)).length ≠ X.shape.length
      · rw [if_pos hl] at h
        exact absurd h (by intro h; cases h)
      · rw [if_neg hl] at h
        have h0 : (inds X.shape).length ≠ 0 := by
          obtain ⟨q, hq⟩ := hp
          intro h0
          have := (mem_inds _ _).2 hq
          rw [List.length_eq_zero_iff.1 h0] at this
          cases this
        rw [if_neg (by rintro (h1 | h1); exact hl h1; exact h0 h1)]
        revert h
        dsimp only
        unfold center
        generalize Gtda.Diagrams.npMax (_ : List K) = r
        cases r with
        | error e => intro h; cases h
        | ok m => intro h; cases h; rfl

theorem radial_learn_ok (p : RadialParams K) (X : Batch K) (s : RadialAttrs K) (h0 : X.shape ≠ []) (h : (radialCls.learn p X s).2 = .ok ()) :
    2 ≤ X.shape.length ∧ HasPixel X.shape ∧ (∀ l, p.center = some l → l.length = X.shape.length) ∧ p.metric ≠ none := by
  unfold radialCls at h
  dsimp only at h
  cases hr : radialRanges (K := K) X.shape with
  | error e =>
      rw [hr] at h
      exact absurd h (by intro h; cases h)
  | ok ranges =>
      rw [hr] at h
      dsimp only at h
      cases hm : p.metric with
      | none =>
          rw [hm] at h
          exact absurd h (by intro h; cases h)
      | some dist =>
          rw [hm] at h
          dsimp only at h
          by_cases hl : ((p.center.map fun l => l.map fun (a : Int) => (a : K)).getD (List.replicate X.shape.length 0)).length ≠ X.shape.length ∨ (inds X.shape).length = 0
          · rw [if_pos hl] at h
            exact absurd h (by intro h; cases h)
          · push Not at hl
            refine ⟨?_, ?_, ?_, by simp⟩
            · rcases hsh : X.shape with _ | ⟨a, _ | ⟨b, t⟩⟩
              · exact absurd hsh h0
              · rw [hsh] at hr
                exact absurd hr (by intro h; cases h)
              · simp
            · obtain ⟨q, hq⟩ := List.exists_mem_of_ne_nil (inds X.shape) (by intro h; rw [h] at hl; exact hl.2 rfl)
              exact ⟨q, (mem_inds _ _).1 hq⟩
            · intro l hc
              have := hl.1
              rw [hc] at this
              simpa using this

theorem broadcast_self {sh : List Nat} {p : Idx} (h : IsPixel sh p) : broadcastIdx sh sh p = p := by
  unfold broadcastIdx
  rw [Nat.sub_self, List.drop_zero]
  unfold IsPixel at h
  induction h with
  | nil => rfl
  | @cons a b t t' h1 _ ih =>
      rw [List.zipWith_cons_cons, ih]
      congr 1
      split
      · omega
      · rfl

theorem calcRadial_congr (m m' : Idx → XNum K) (M : K) (x : Img K) (p : Idx) (h : m p = m' p) : calcRadial m M x p = calcRadial m' M x p := by
  unfold calcRadial
  rw [h]

theorem zip_self_any (sh : List Nat) (f : Nat × Nat → Bool) (h : ∀ a, f (a, a) = false) : (sh.zip sh).any f = false := by
  induction sh with
  | nil => rfl
  | cons a t ih => rw [List.zip_cons_cons, List.any_cons, h, ih]; rfl

theorem zip_any_of_ne : ∀ (sh sh' : List Nat) (f : Nat × Nat → Bool), sh.length = sh'.length → sh ≠ sh' → (∀ a ∈ sh, ∀ b, a ≠ b → f (a, b) = true) → (sh.zip sh').any f = true
  | [], [], _, _, h, _ => absurd rfl h
  | a :: t, b :: t', f, hl, hne, hf => by
      rw [List.zip_cons_cons, List.any_cons]
      by_cases hab : a = b
      · subst hab
        rw [zip_any_of_ne t t' f (by simpa using hl) (fun h => hne (by rw [h])) (fun a ha => hf a (List.mem_cons_of_mem _ ha)), Bool.or_true]
      · rw [hf a List.mem_cons_self b hab, Bool.true_or]

/-! ### density -/

theorem densityFit_shape [FloorRing K] (sh sh' : List Nat) (hs : sh.length = 2 ∨ sh.length = 3) (h : sh'.length = sh.length) (r : K) (dist : List K → List K → K) :
    densityFit sh r dist = densityFit sh' r dist := by
  rcases hs with hs | hs
  · obtain ⟨a, b, rfl⟩ := List.length_eq_two.1 hs
    obtain ⟨a', b', rfl⟩ := List.length_eq_two.1 (h.trans hs)
    rfl
  · obtain ⟨a, b, c, rfl⟩ := List.length_eq_three.1 hs
    obtain ⟨a', b', c', rfl⟩ := List.length_eq_three.1 (h.trans hs)
    rfl

theorem density_learn [FloorRing K] (p : DensityParams K) (X : Batch K) (s : DensityAttrs) (hs : X.shape.length = 2 ∨ X.shape.length = 3) (h0 : 0 ∉ X.shape.take 2) (r : K)
    (dist : List K → List K → K) (hr : p.radius = some r) (hd : p.metric = some dist) : ∃ f, densityFit X.shape r dist = .ok f ∧ f.nDims = X.shape.length ∧
      f.padding.length = 3 ∧ densityCls.learn p X s = (⟨some (f.size, f.mask, f.iterator), some f.padding⟩, .ok ()) := by
  unfold densityCls
  dsimp only
  rw [hd, hr]
  dsimp only
  rw [if_neg (by simpa using h0)]
  obtain ⟨shape, images⟩ := X
  dsimp only at *
  rcases hs with hs | hs
  · obtain ⟨a, b, rfl⟩ := List.length_eq_two.1 hs
    exact ⟨_, rfl, rfl, rfl, rfl⟩
  · obtain ⟨a, b, c, rfl⟩ := List.length_eq_three.1 hs
    exact ⟨_, rfl, rfl, rfl, rfl⟩

theorem density_learn_ok [FloorRing K] (p : DensityParams K) (X : Batch K) (s : DensityAttrs) (hX : X.shape ≠ []) (h : (densityCls.learn p X s).2 = .ok ()) :
    2 ≤ X.shape.length ∧ 0 ∉ X.shape.take 2 ∧ p.radius ≠ none ∧ p.metric ≠ none := by
  unfold densityCls at h
  dsimp only at h
  cases hm : p.metric with
  | none =>
      rw [hm] at h
      exact absurd h (by intro h; cases h)
  | some dist =>
      rw [hm] at h
      cases hr : p.radius with
      | none =>
          rw [hr] at h
          exact absurd h (by intro h; cases h)
      | some r =>
          rw [hr] at h
          dsimp only at h
          by_cases hc : (X.shape.take 2).contains 0 = true
          · rw [if_pos hc] at h
            exact absurd h (by intro h; cases h)
          · rw [if_neg hc] at h
            refine ⟨?_, by simpa using hc, by simp, by simp⟩
            rcases hsh : X.shape with _ | ⟨a, _ | ⟨b, t⟩⟩
            · exact absurd hsh hX
            · rw [hsh] at h
              exact absurd h (by intro h; cases h)
            · simp

end

end Gtda.Props.ImageObjectMesh

namespace Gtda.Props

open Gtda.Py Gtda.Images Gtda.ImageObject Gtda.Spec.Images Gtda.Spec.ImageObject Gtda.Props.ImageObject Gtda.Props.ImageObjectMesh

section

variable {K : Type} [Field K] [LinearOrder K] [IsStrictOrderedRing K]

/-- **C129** `fit` of `RadialFiltration` and of `DensityFiltration` accepts exactly: collections of images with two or three axes and pixels (for the latter: no empty row or column), with a positive
radius (for the latter: finite), a metric that is known and (for the former) a centre with one coordinate per axis. -/
theorem C129_accepts_balls [FloorRing K] :
    (∀ (o : Obj (RadialParams K) (RadialAttrs K)) (X : Batch K), (fit radialCls o X).2 = .ok () ↔
      Supported X.shape X.images.length ∧ 2 ≤ X.shape.length ∧ HasPixel X.shape ∧ (∀ r, o.params.radius = some r → 0 < r) ∧ o.params.metric ≠ none ∧
        ∀ l, o.params.center = some l → l.length = X.shape.length) ∧
    (∀ (o : Obj (DensityParams K) DensityAttrs) (X : Batch K), (fit densityCls o X).2 = .ok () ↔
      Supported X.shape X.images.length ∧ 2 ≤ X.shape.length ∧ 0 ∉ X.shape.take 2 ∧ (∃ r, o.params.radius = some r ∧ 0 < r) ∧ o.params.metric ≠ none) := by
  have hval : ∀ r : Option K, (if r.any fun r => decide (r ≤ 0) then (.error .valueError : PyM Unit) else .ok ()) = .ok () ↔ ∀ a, r = some a → 0 < a := by
    intro r
    cases r with
    | none => simp
    | some a =>
        by_cases ha : a ≤ 0
        · simp [ha]
        · simp [ha]
          exact not_le.1 ha
  refine ⟨fun o X => ?_, fun o X => ?_⟩
  · by_cases hX : Supported X.shape X.images.length
    · have hc : radialCls.array X = .ok X.shape.length := checkArray_ok hX.1
      by_cases hv : ∀ a, o.params.radius = some a → 0 < a
      · rw [fit_checked radialCls o X _ hc hX.2 ((hval _).2 hv)]
        constructor
        · intro h
          obtain ⟨h1, h2, h3, h4⟩ := radial_learn_ok o.params X o.attrs hX.1.1 h
          exact ⟨hX, h1, h2, hv, h4, h3⟩
        · rintro ⟨_, h2, ⟨p₀, hp⟩, _, hm, hl⟩
          obtain ⟨dist, hd⟩ := Option.ne_none_iff_exists'.1 hm
          obtain ⟨ranges, hr, _⟩ := radialMesh (K := K) X.shape (by have := hX.2; omega)
          have hcl : ((center o.params).getD (List.replicate X.shape.length 0)).length = X.shape.length := by
            unfold center
            cases h : o.params.center with
            | none => simp
            | some l => simpa using hl l h
          have hex : ∀ g : Img K, ∃ m, Gtda.Diagrams.npMax (pixels X.shape [g]) = .ok m := by
            intro g
            obtain ⟨m, h1, _⟩ := Gtda.Props.npMax_spec (pixels X.shape [g]) (List.ne_nil_of_mem (mem_pixels.2 ⟨g, List.mem_singleton_self _, p₀, hp, rfl⟩))
            exact ⟨m, h1⟩
          have hf : ∃ f, radialFit X.shape (center o.params) o.params.radius dist = .ok f := by
            unfold radialFit
            rw [checkDims_ok hX.2, hr]
            change ∃ f, (if ((center o.params).getD (List.replicate X.shape.length 0)).length ≠ X.shape.length then _ else _) = _
            rw [if_neg (by simpa using hcl)]
            refine ⟨?w, ?_⟩
            rotate_left
            · dsimp only
              rw [(hex _).choose_spec]
              rfl
          obtain ⟨f, hf⟩ := hf
          rw [radial_learn o.params X o.attrs dist hd ⟨p₀, hp⟩ hX.2 f hf]
      · obtain ⟨e, he⟩ : ∃ e, radialCls.validate o.params = .error e := by
          cases h : radialCls.validate o.params with
          | error e => exact ⟨e, rfl⟩
          | ok u => exact absurd ((hval _).1 h) hv
        obtain ⟨⟨e', h'⟩, _⟩ := fit_refused radialCls o X fun _ _ => Or.inr ⟨e, he⟩
        rw [h']
        exact ⟨fun h => (by cases h), fun h => absurd h.2.2.2.1 hv⟩
    · obtain ⟨⟨e', h'⟩, _⟩ := fit_refused radialCls o X fun n hn => Or.inl (not_supported hX n hn)
      rw [h']
      exact ⟨fun h => (by cases h), fun h => absurd h.1 hX⟩
  · by_cases hX : Supported X.shape X.images.length
    · have hc : (densityCls (K := K)).array X = .ok X.shape.length := checkArray_ok hX.1
      by_cases hv : ∀ a, o.params.radius = some a → 0 < a
      · rw [fit_checked densityCls o X _ hc hX.2 ((hval _).2 hv)]
        constructor
        · intro h
          obtain ⟨h1, h2, h3, h4⟩ := density_learn_ok o.params X o.attrs hX.1.1 h
          obtain ⟨r, hr⟩ := Option.ne_none_iff_exists'.1 h3
          exact ⟨hX, h1, h2, ⟨r, hr, hv r hr⟩, h4⟩
        · rintro ⟨_, h2, h0, ⟨r, hr, _⟩, hm⟩
          obtain ⟨dist, hd⟩ := Option.ne_none_iff_exists'.1 hm
          obtain ⟨f, _, _, _, hl⟩ := density_learn o.params X o.attrs (by have := hX.2; omega) h0 r dist hr hd
          rw [hl]
      · obtain ⟨e, he⟩ : ∃ e, (densityCls (K := K)).validate o.params = .error e := by
          cases h : (densityCls (K := K)).validate o.params with
          | error e => exact ⟨e, rfl⟩
          | ok u => exact absurd ((hval _).1 h) hv
        obtain ⟨⟨e', h'⟩, _⟩ := fit_refused densityCls o X fun _ _ => Or.inr ⟨e, he⟩
        rw [h']
        refine ⟨fun h => (by cases h), fun h => absurd ?_ hv⟩
        obtain ⟨r, hr, h0⟩ := h.2.2.2.1
        intro a ha
        rw [hr] at ha
        cases ha
        exact h0
    · obtain ⟨⟨e', h'⟩, _⟩ := fit_refused densityCls o X fun n hn => Or.inl (not_supported hX n hn)
      rw [h']
      exact ⟨fun h => (by cases h), fun h => absurd h.1 hX⟩

/-- **C129** `RadialFiltration`, whatever happened to the object before: after `fit` with acceptable parameters and images, and then any operations of which every `fit` is refused at once, `transform`
of binary images of the same shape gives active pixels within the radius their distance to the centre at the time of `fit`, all other pixels a value `M` above all these, for every number of jobs.
Images of another shape with as many axes raise if no axis of the images of `fit` has length 1. -/
theorem C129_radial (o : Obj (RadialParams K) (RadialAttrs K)) (X : Batch K) (hX : Supported X.shape X.images.length) (h2 : 2 ≤ X.shape.length) (hp : HasPixel X.shape)
    (hr : ∀ r, o.params.radius = some r → 0 < r) (dist : List K → List K → K) (hd : o.params.metric = some dist) (hpos : ∀ a b, 0 ≤ dist a b)
    (hc : ∀ l, o.params.center = some l → l.length = X.shape.length) :
    (fit radialCls o X).2 = .ok () ∧ ∃ (c : List K) (M : K),
      ((∃ l, o.params.center = some l ∧ c = l.map fun (a : Int) => (a : K)) ∨ (o.params.center = none ∧ c = List.replicate X.shape.length 0)) ∧
      0 < M ∧ (∀ p, IsPixel X.shape p → (∀ r, o.params.radius = some r → dist c (coords p) ≤ r) → dist c (coords p) < M) ∧
      ∀ ops : List (Op (RadialParams K) (Batch K)),
        Harmless (fun q Z => ¬ Supported Z.shape Z.images.length ∨ Z.shape.length < 2 ∨ ∃ r, q.radius = some r ∧ r ≤ 0) o.params ops →
        ∀ (nJobs : Nat), 1 ≤ nJobs → ∀ X' : Batch K, IsCollection X'.shape X'.images.length →
          (X'.shape = X.shape → ∃ Y, transform radialCls (run radialCls (fit radialCls o X).1 ops) nJobs X' = .ok Y ∧ Y.length = X'.images.length ∧
            ∀ (i : Nat) x, X'.images[i]? = some x → IsBinary X.shape x → ∃ y, Y[i]? = some y ∧ ∀ p, IsPixel X.shape p →
              (x p = 1 → (∀ r, o.params.radius = some r → dist c (coords p) ≤ r) → y p = dist c (coords p)) ∧
              (x p = 1 → ∀ r, o.params.radius = some r → r < dist c (coords p) → y p = M) ∧
              (x p = 0 → y p = M)) ∧
          (X'.shape.length = X.shape.length → X'.shape ≠ X.shape → 1 ∉ X.shape → ∃ e, transform radialCls (run radialCls (fit radialCls o X).1 ops) nJobs X' = .error e) := by
  obtain ⟨p₀, hp₀⟩ := hp
  obtain ⟨f, c, hf, hcc, hlt, hM, _, hval⟩ := C60_radial X.shape (by have := hX.2; omega) p₀ hp₀ (center o.params) (by
    intro v hv
    unfold center at hv
    cases h : o.params.center with
    | none => rw [h] at hv; cases hv
    | some l =>
        rw [h] at hv
        cases hv
        simpa using hc l h) o.params.radius dist hpos
  have hlearn := radial_learn o.params X o.attrs dist hd ⟨p₀, hp₀⟩ hX.2 f hf
  have hfit : fit radialCls o X = (⟨o.params, some X.shape.length, ⟨some (X.shape, f.mesh), some f.maxValue⟩⟩, .ok ()) := by
    rw [fit_checked radialCls o X X.shape.length (checkArray_ok hX.1) hX.2, hlearn]
    change (if _ then _ else _) = _
    rw [if_neg]
    cases h : o.params.radius with
    | none => simp
    | some r => simpa using hr r h
  rw [hfit]
  refine ⟨rfl, c, f.maxValue, ?_, by linarith, fun p hp h => by have := hlt p hp h; linarith, ?_⟩
  · unfold center at hcc
    cases h : o.params.center with
    | none =>
        rw [h] at hcc
        rcases hcc with hcc | hcc
        · cases hcc
        · exact Or.inr ⟨rfl, hcc.2⟩
    | some l =>
        rw [h] at hcc
        rcases hcc with hcc | hcc
        · cases hcc
          exact Or.inl ⟨l, rfl, rfl⟩
        · exact absurd hcc.1 (by simp)
  · intro ops hops nJobs hn X' hX'
    obtain ⟨ha, n, hnd⟩ := harmless_run radialCls (fun q Z => ¬ Supported Z.shape Z.images.length ∨ Z.shape.length < 2 ∨ ∃ r, q.radius = some r ∧ r ≤ 0)
      (fun n => ∃ k, n = some k) (by
        intro o Z hZ hi
        by_cases hv : ∃ r, o.params.radius = some r ∧ r ≤ 0
        · obtain ⟨r, hr, h0⟩ := hv
          refine fit_refused' radialCls o Z (fun _ _ => Or.inr ⟨.valueError, ?_⟩) hi
          change (if _ then _ else _) = _
          rw [if_pos (by simp [hr, h0])]
        · by_cases hs : Supported Z.shape Z.images.length
          · have hlen : Z.shape.length < 2 := by
              rcases hZ with h | h | h
              · exact absurd hs h
              · exact h
              · exact absurd h hv
            obtain ⟨a, ha⟩ : ∃ a, Z.shape = [a] := by
              rcases hsh : Z.shape with _ | ⟨a, _ | ⟨b, t⟩⟩
              · exact absurd hsh hs.1.1
              · exact ⟨a, rfl⟩
              · rw [hsh] at hlen
                simp at hlen
            rw [fit_checked radialCls o Z Z.shape.length (checkArray_ok hs.1) hs.2 (by
              change (if _ then _ else _) = _
              rw [if_neg]
              cases h : o.params.radius with
              | none => simp
              | some r =>
                  have := fun h0 => hv ⟨r, h, h0⟩
                  simpa using this)]
            have : radialCls.learn o.params Z o.attrs = (o.attrs, .error .indexError) := by
              unfold radialCls
              dsimp only
              rw [ha]
              rfl
            rw [this]
            exact ⟨rfl, rfl, _, rfl⟩
          · exact fit_refused' radialCls o Z (fun n hn => Or.inl (not_supported hs n hn)) hi) ops ⟨o.params, some X.shape.length, ⟨some (X.shape, f.mesh), some f.maxValue⟩⟩ ⟨_, rfl⟩ hops
    have ht := transform_ok radialCls _ n _ hnd nJobs X' (checkArray_ok hX')
    rw [ht, ha]
    constructor
    · intro hsh
      refine ⟨X'.images.map (calcRadial (fun p => f.mesh (broadcastIdx X.shape X'.shape p)) f.maxValue), ?_, List.length_map _, ?_⟩
      · unfold radialCls
        dsimp only
        rw [hsh, Nat.sub_self, List.drop_zero, if_neg (by omega), if_neg (by rw [zip_self_any _ _ (by simp)]; simp), if_neg (by rw [zip_self_any _ _ (by simp)]; simp),
          Gtda.Props.C17_njobs_map _ nJobs hn]
      · intro i x hi hx
        refine ⟨calcRadial (fun p => f.mesh (broadcastIdx X.shape X'.shape p)) f.maxValue x, by rw [List.getElem?_map, hi]; rfl, ?_⟩
        intro p hpx
        obtain ⟨y, hy, hv⟩ := hval 1 le_rfl X'.images i x hi hx
        have hyy : y = calcRadial f.mesh f.maxValue x := by
          unfold radialTransform at hy
          rw [Gtda.Props.C17_njobs_map _ 1 le_rfl, List.getElem?_map, hi] at hy
          cases hy
          rfl
        have := hv p hpx
        rw [hyy] at this
        rw [calcRadial_congr _ f.mesh f.maxValue x p (by rw [hsh, broadcast_self hpx])]
        exact this
    · intro hl hne h1
      unfold radialCls
      dsimp only
      rw [if_neg (by omega), hl, Nat.sub_self, List.drop_zero]
      by_cases ha : ((X.shape.zip X'.shape).any fun ab => decide (ab.1 ≠ ab.2 ∧ ab.1 ≠ 1 ∧ ab.2 ≠ 1)) = true
      · rw [if_pos ha]
        exact ⟨_, rfl⟩
      · rw [if_neg ha]
        by_cases hb : ((X.shape.zip X'.shape).any fun ab => decide (ab.2 = 1 ∧ ab.1 ≠ 1)) = true
        · rw [if_pos hb]
          exact ⟨_, rfl⟩
        · exfalso
          have := zip_any_of_ne X.shape X'.shape (fun ab => decide (ab.1 ≠ ab.2 ∧ ab.1 ≠ 1 ∧ ab.2 ≠ 1) || decide (ab.2 = 1 ∧ ab.1 ≠ 1)) hl.symm (Ne.symm hne) (by
            intro a ha b hab
            have : a ≠ 1 := fun h => h1 (h ▸ ha)
            by_cases hb : b = 1 <;> simp [hab, this, hb])
          obtain ⟨ab, hm, h⟩ := List.any_eq_true.1 this
          rcases (Bool.or_eq_true _ _).mp h with h | h
          · exact ha (List.any_eq_true.2 ⟨ab, hm, h⟩)
          · exact hb (List.any_eq_true.2 ⟨ab, hm, h⟩)

/-- **C129** `DensityFiltration`, whatever happened to the object before: after `fit` with acceptable parameters and images, and then any operations of which every `fit` is either not given a
collection of arrays or is given one with the same number of axes and refused because of the parameters, `transform` of images of any shape with as many axes gives every pixel of a binary image
the number of active pixels within the radius at the time of `fit`. -/
theorem C129_density [FloorRing K] (o : Obj (DensityParams K) DensityAttrs) (X : Batch K) (hX : Supported X.shape X.images.length) (h2 : 2 ≤ X.shape.length) (h0 : 0 ∉ X.shape.take 2) (r : K)
    (hr : o.params.radius = some r) (hpos : 0 < r) (dist : List K → List K → K) (hd : o.params.metric = some dist) (hg : IsGridMetric dist r) :
    (fit densityCls o X).2 = .ok () ∧
      ∀ ops : List (Op (DensityParams K) (Batch K)),
        Harmless (fun q Z => ¬ IsCollection Z.shape Z.images.length ∨
          (Z.shape.length = X.shape.length ∧ (q.metric = none ∨ q.radius = none ∨ ∃ a, q.radius = some a ∧ a ≤ 0))) o.params ops →
        ∀ (nJobs : Nat), 1 ≤ nJobs → ∀ X' : Batch K, IsCollection X'.shape X'.images.length → X'.shape.length = X.shape.length → 0 ∉ X'.shape.take 2 →
          ∃ Y, transform densityCls (run densityCls (fit densityCls o X).1 ops) nJobs X' = .ok Y ∧ Y.length = X'.images.length ∧
            ∀ (i : Nat) x, X'.images[i]? = some x → IsBinary X'.shape x → ∃ y, Y[i]? = some y ∧ ∀ p, IsPixel X'.shape p →
              y p = ({q | IsPixel X'.shape q ∧ x q = 1 ∧ dist (coords3 p) (coords3 q) ≤ r}.ncard : K) := by
  have hs : X.shape.length = 2 ∨ X.shape.length = 3 := by have := hX.2; omega
  obtain ⟨f, hf, hnd, hw, hlearn⟩ := density_learn o.params X o.attrs hs h0 r dist hr hd
  have hfit : fit densityCls o X = (⟨o.params, some X.shape.length, ⟨some (f.size, f.mask, f.iterator), some f.padding⟩⟩, .ok ()) := by
    rw [fit_checked densityCls o X X.shape.length (checkArray_ok hX.1) hX.2, hlearn]
    change (if _ then _ else _) = _
    rw [if_neg (by simpa [hr] using hpos)]
  rw [hfit]
  refine ⟨rfl, ?_⟩
  intro ops hops nJobs hn X' hX' hl h0'
  obtain ⟨ha, hn'⟩ := harmless_run densityCls (fun q Z => ¬ IsCollection Z.shape Z.images.length ∨
      (Z.shape.length = X.shape.length ∧ (q.metric = none ∨ q.radius = none ∨ ∃ a, q.radius = some a ∧ a ≤ 0))) (fun n => n = some X.shape.length) (by
    intro o Z hZ hi
    by_cases hc : IsCollection Z.shape Z.images.length
    · have hZ := hZ.resolve_left (by simpa using hc)
      have hcz : (densityCls (K := K)).array Z = .ok X.shape.length := by
        rw [← hZ.1]
        exact checkArray_ok hc
      by_cases hv : (densityCls (K := K)).validate o.params = .ok ()
      · rw [fit_checked densityCls o Z X.shape.length hcz hX.2 hv]
        have : ((densityCls (K := K)).learn o.params Z o.attrs).1 = o.attrs := by
          unfold densityCls
          dsimp only
          rcases hZ.2 with h | h | ⟨a, h, h0⟩
          · rw [h]
          · rw [h]
            cases o.params.metric <;> rfl
          · exfalso
            revert hv
            change (if _ then _ else _) = _ → False
            rw [if_pos (by simp [h, h0])]
            intro h
            cases h
        exact ⟨this, rfl, rfl⟩
      · obtain ⟨e, he⟩ : ∃ e, (densityCls (K := K)).validate o.params = .error e := by
          cases h : (densityCls (K := K)).validate o.params with
          | error e => exact ⟨e, rfl⟩
          | ok u => exact absurd h hv
        obtain ⟨_, h1, h2, h3⟩ := fit_refused densityCls o Z fun _ _ => Or.inr ⟨e, he⟩
        refine ⟨h1, h2, ?_⟩
        rcases h3 with ⟨n, h3, h4⟩ | h3
        · rw [hcz] at h4
          cases h4
          exact h3
        · rw [h3]
          exact hi
    · obtain ⟨_, h1, h2, h3⟩ := fit_refused densityCls o Z fun n hn => by
        rw [show (densityCls (K := K)).array Z = .error .valueError from checkArray_error hc] at hn
        cases hn
      refine ⟨h1, h2, ?_⟩
      rcases h3 with ⟨n, h3, h4⟩ | h3
      · rw [show (densityCls (K := K)).array Z = .error .valueError from checkArray_error hc] at h4
        cases h4
      · rw [h3]
        exact hi) ops ⟨o.params, some X.shape.length, ⟨some (f.size, f.mask, f.iterator), some f.padding⟩⟩ rfl hops
  rw [transform_ok densityCls _ X.shape.length _ hn' nJobs X' (checkArray_ok hX'), ha]
  have hb : (densityCls (K := K)).body (run densityCls ⟨o.params, some X.shape.length, ⟨some (f.size, f.mask, f.iterator), some f.padding⟩⟩ ops).params X.shape.length
      ⟨some (f.size, f.mask, f.iterator), some f.padding⟩ nJobs X' = densityTransform f nJobs X'.shape X'.images := by
    unfold densityCls
    dsimp only
    rw [if_neg (by omega), if_neg (by simpa using h0'), if_neg]
    · have : (if X.shape.length = 3 then 3 else 2) = f.nDims := by
        rw [hnd]
        rcases hs with h | h <;> rw [h] <;> rfl
      rw [this]
    · rw [hw]
      unfold shape3
      rw [List.length_append, List.length_take]
      simp
      omega
  rw [hb]
  obtain ⟨f', hf', hval⟩ := C64_density X'.shape (by omega) r dist hg
  rw [← densityFit_shape X.shape X'.shape hs hl r dist, hf] at hf'
  cases hf'
  exact hval nJobs hn X'.images

end

/-- **C129** `fit` of `HeightFiltration` accepts exactly collections of images with two or three axes and pixels, and a direction (if given) with one coordinate per axis. -/
theorem C129_accepts_height (o : Obj (Option (List ℝ)) (HeightAttrs ℝ)) (X : Batch ℝ) : (fit (heightCls unitDirection) o X).2 = .ok () ↔
    Supported X.shape X.images.length ∧ 2 ≤ X.shape.length ∧ HasPixel X.shape ∧ ∀ v, o.params = some v → v.length = X.shape.length := by
  by_cases hX : Supported X.shape X.images.length
  · rw [fit_checked (heightCls unitDirection) o X X.shape.length (checkArray_ok hX.1) hX.2 rfl]
    have hlen : (unitDirection X.shape.length o.params).length = X.shape.length ↔ ∀ v, o.params = some v → v.length = X.shape.length := by
      rw [unitDirection_length]
      cases o.params with
      | none => simp
      | some v => simp
    constructor
    · intro h
      obtain ⟨f, hf⟩ := height_learn_ok unitDirection o.params X o.attrs h
      obtain ⟨h1, h2, h3⟩ := heightFitDir_ok hf hX.1.1
      exact ⟨hX, h1, h3, hlen.1 h2⟩
    · rintro ⟨_, h1, ⟨p₀, hp⟩, h3⟩
      obtain ⟨f, hf, _⟩ := height_core X.shape (by have := hX.2; omega) _ (hlen.2 h3) p₀ hp
      rw [height_learn unitDirection o.params X o.attrs f hf]
  · obtain ⟨⟨e', h'⟩, _⟩ := fit_refused (heightCls unitDirection) o X fun n hn => Or.inl (not_supported hX n hn)
    rw [h']
    exact ⟨fun h => (by cases h), fun h => absurd h.1 hX⟩

/-- **C129** `HeightFiltration`, whatever happened to the object before: after an acceptable `fit`, and then any operations of which every `fit` is refused at once, `transform` of images with as many
axes, of any shape, raises `IndexError` if an active pixel is not a pixel of the images of `fit`; otherwise active pixels get their height above the lowest corner in the direction at the time of `fit`,
inactive ones a value `M` above all heights. Images with another number of axes raise. -/
theorem C129_height (o : Obj (Option (List ℝ)) (HeightAttrs ℝ)) (X : Batch ℝ) (hX : Supported X.shape X.images.length) (h2 : 2 ≤ X.shape.length) (hp : HasPixel X.shape)
    (hdir : ∀ v, o.params = some v → v.length = X.shape.length ∧ ∃ c ∈ v, c ≠ 0) :
    (fit (heightCls unitDirection) o X).2 = .ok () ∧ ∃ (u corner : List ℝ) (c M : ℝ), 0 < c ∧ u = (o.params.getD (List.replicate X.shape.length 1)).map (fun a => c * a) ∧
      (u.map fun a => a ^ 2).sum = 1 ∧ (∃ q₀, IsPixel X.shape q₀ ∧ corner = coords q₀) ∧
      (∀ q, IsPixel X.shape q → 0 ≤ inner (coords q) u - inner corner u ∧ inner (coords q) u - inner corner u < M) ∧
      ∀ ops : List (Op (Option (List ℝ)) (Batch ℝ)), Harmless (fun _ Z => ¬ Supported Z.shape Z.images.length) o.params ops →
        ∀ (nJobs : Nat), 1 ≤ nJobs → ∀ X' : Batch ℝ, IsCollection X'.shape X'.images.length →
          (X'.shape.length ≠ X.shape.length → transform (heightCls unitDirection) (run (heightCls unitDirection) (fit (heightCls unitDirection) o X).1 ops) nJobs X' = .error .valueError) ∧
          (X'.shape.length = X.shape.length → (∃ x ∈ X'.images, ∃ p, IsPixel X'.shape p ∧ x p ≠ 0 ∧ ¬ IsPixel X.shape p) →
            transform (heightCls unitDirection) (run (heightCls unitDirection) (fit (heightCls unitDirection) o X).1 ops) nJobs X' = .error .indexError) ∧
          (X'.shape.length = X.shape.length → (∀ x ∈ X'.images, ∀ p, IsPixel X'.shape p → x p ≠ 0 → IsPixel X.shape p) →
            ∃ Y, transform (heightCls unitDirection) (run (heightCls unitDirection) (fit (heightCls unitDirection) o X).1 ops) nJobs X' = .ok Y ∧ Y.length = X'.images.length ∧
              ∀ (i : Nat) x, X'.images[i]? = some x → ∃ y, Y[i]? = some y ∧ ∀ p, IsPixel X'.shape p →
                (x p ≠ 0 → y p = inner (coords p) u - inner corner u) ∧ (x p = 0 → y p = M)) := by
  obtain ⟨p₀, hp₀⟩ := hp
  obtain ⟨f, hf, u, corner, c, hc, hu, hu1, hcor, hM, _, hval⟩ := C59_height X.shape (by have := hX.2; omega) p₀ hp₀ o.params hdir
  have hfd : heightFitDir X.shape (unitDirection X.shape.length o.params) = .ok f := by
    unfold heightFit at hf
    rw [checkDims_ok hX.2] at hf
    exact hf
  have hlen : f.direction.length = X.shape.length := by
    have h1 := (heightFitDir_ok hfd hX.1.1).2.1
    have h2 : f.direction = unitDirection X.shape.length o.params := by
      unfold heightFitDir at hfd
      cases hr : heightRanges X.shape (unitDirection X.shape.length o.params) with
      | error e => rw [hr] at hfd; cases hfd
      | ok ranges =>
          rw [hr, ok_bind, if_neg (by simpa using h1)] at hfd
          dsimp only at hfd
          cases hm : Gtda.Diagrams.npMax (pixels X.shape [calcHeight (unitDirection X.shape.length o.params) (meshgridXY ranges) 0 (fun _ => 1)]) with
          | error e => rw [hm] at hfd; cases hfd
          | ok m => rw [hm] at hfd; cases hfd; rfl
    rw [h2, h1]
  have hfit : fit (heightCls unitDirection) o X = (⟨o.params, some X.shape.length, ⟨some f.direction, some (X.shape, f.mesh), some f.maxValue⟩⟩, .ok ()) := by
    rw [fit_checked (heightCls unitDirection) o X X.shape.length (checkArray_ok hX.1) hX.2 rfl, height_learn unitDirection o.params X o.attrs f hfd]
  rw [hfit]
  refine ⟨rfl, u, corner, c, f.maxValue, hc, hu, hu1, hcor, fun q hq => ⟨(hM q hq).1, by have := (hM q hq).2; linarith⟩, ?_⟩
  intro ops hops nJobs hn X' hX'
  obtain ⟨ha, n, hnd⟩ := harmless_run (heightCls unitDirection) (fun _ Z => ¬ Supported Z.shape Z.images.length) (fun n => ∃ k, n = some k)
    (fun o Z hZ hi => fit_refused' _ o Z (fun n hn => Or.inl (not_supported hZ n hn)) hi) ops ⟨o.params, some X.shape.length, ⟨some f.direction, some (X.shape, f.mesh), some f.maxValue⟩⟩ ⟨_, rfl⟩ hops
  rw [transform_ok (heightCls unitDirection) _ n _ hnd nJobs X' (checkArray_ok hX'), ha]
  have hb : ∀ p, (heightCls unitDirection).body p n ⟨some f.direction, some (X.shape, f.mesh), some f.maxValue⟩ nJobs X' =
      if X.shape.length ≠ X'.shape.length then .error .valueError
      else X'.images.forM (fun x => if (inds X'.shape).any (fun p => decide (x p ≠ 0) && !inShape p X.shape) then .error .indexError
        else if f.direction.length ≠ X.shape.length then .error .valueError else .ok ()) >>= fun _ => .ok (heightTransform f nJobs X'.images) := fun _ => rfl
  rw [hb]
  have hout : ∀ x : Img ℝ, ((inds X'.shape).any fun p => decide (x p ≠ 0) && !inShape p X.shape) = true ↔ ∃ p, IsPixel X'.shape p ∧ x p ≠ 0 ∧ ¬ IsPixel X.shape p := by
    intro x
    rw [List.any_eq_true]
    constructor
    · rintro ⟨p, h1, h2⟩
      rw [Bool.and_eq_true, decide_eq_true_iff, Bool.not_eq_true', ← Bool.not_eq_true, inShape_iff] at h2
      exact ⟨p, (mem_inds _ _).1 h1, h2.1, h2.2⟩
    · rintro ⟨p, h1, h2, h3⟩
      refine ⟨p, (mem_inds _ _).2 h1, ?_⟩
      rw [Bool.and_eq_true, decide_eq_true_iff, Bool.not_eq_true', ← Bool.not_eq_true, inShape_iff]
      exact ⟨h2, h3⟩
  refine ⟨?_, ?_, ?_⟩
  · intro h
    rw [if_pos (Ne.symm h)]
  · rintro h ⟨x, hx, hxp⟩
    rw [if_neg (by simpa using h.symm), forM_error _ .indexError X'.images]
    · rfl
    · intro z hz
      by_cases hz' : ((inds X'.shape).any fun p => decide (z p ≠ 0) && !inShape p X.shape) = true
      · rw [if_pos hz']
        exact Or.inr rfl
      · rw [if_neg hz', if_neg (by simpa using hlen)]
        exact Or.inl rfl
    · exact ⟨x, hx, if_pos ((hout x).2 hxp)⟩
  · intro h hin
    rw [if_neg (by simpa using h.symm), forM_ok]
    · refine ⟨heightTransform f nJobs X'.images, rfl, ?_, ?_⟩
      · unfold heightTransform
        rw [Gtda.Props.C17_njobs_map _ nJobs hn, List.length_map]
      · intro i x hi
        obtain ⟨y, hy, hv⟩ := hval nJobs hn X'.images i x hi
        refine ⟨y, hy, ?_⟩
        intro p hpx
        refine ⟨fun hne => (hv p (hin x (List.mem_of_getElem? hi) p hpx hne)).1 hne, fun h0 => ?_⟩
        unfold heightTransform at hy
        rw [Gtda.Props.C17_njobs_map _ nJobs hn, List.getElem?_map, hi] at hy
        cases hy
        unfold calcHeight
        rw [if_neg (by simpa using h0)]
    · intro x hx
      rw [if_neg, if_neg (by simpa using hlen)]
      rw [hout]
      rintro ⟨p, h1, h2, h3⟩
      exact h3 (hin x hx p h1 h2)

/-- **C129** A refused `fit` can spoil an object: `fit` of a `HeightFiltration`, fitted before or not, raises `ValueError` if the direction has more coordinates than images have axes, but afterwards
every `transform` of every collection raises. -/
theorem C129_refuted_failed_refit_height (o : Obj (Option (List ℝ)) (HeightAttrs ℝ)) (X : Batch ℝ) (hX : Supported X.shape X.images.length) (h2 : 2 ≤ X.shape.length) (v : List ℝ)
    (hv : o.params = some v) (hl : X.shape.length < v.length) :
    (fit (heightCls unitDirection) o X).2 = .error .valueError ∧
      ∀ (nJobs : Nat) (X' : Batch ℝ), IsCollection X'.shape X'.images.length → ∃ e, transform (heightCls unitDirection) (fit (heightCls unitDirection) o X).1 nJobs X' = .error e := by
  have hul : X.shape.length < (unitDirection X.shape.length o.params).length := by
    rw [unitDirection_length, hv]
    exact hl
  have hr : ∃ ranges, heightRanges X.shape (unitDirection X.shape.length o.params) = .ok ranges := by
    generalize unitDirection X.shape.length o.params = d at hul
    have h3 := hX.2
    generalize X.shape = sh at hul h2 h3
    match sh, d, h2, h3, hul with
    | [a, b], _ :: _ :: _ :: _, _, _, _ => exact ⟨_, rfl⟩
    | [a, b, c], _ :: _ :: _ :: _ :: _, _, _, _ => exact ⟨_, rfl⟩
  obtain ⟨ranges, hr⟩ := hr
  have hlearn : (heightCls unitDirection).learn o.params X o.attrs =
      (⟨some (unitDirection X.shape.length o.params), some (X.shape, meshgridXY ranges), some 0⟩, .error .valueError) := by
    unfold heightCls
    dsimp only
    rw [hr]
    dsimp only
    rw [if_pos (by omega)]
  rw [fit_checked (heightCls unitDirection) o X X.shape.length (checkArray_ok hX.1) hX.2 rfl, hlearn]
  refine ⟨rfl, ?_⟩
  intro nJobs X' hX'
  rw [transform_ok (heightCls unitDirection) _ X.shape.length _ rfl nJobs X' (checkArray_ok hX')]
  unfold heightCls
  dsimp only
  by_cases hn : X.shape.length ≠ X'.shape.length
  · rw [if_pos hn]
    exact ⟨_, rfl⟩
  · rw [if_neg hn]
    cases hi : X'.images with
    | nil =>
        rw [hi] at hX'
        exact absurd rfl hX'.2.1
    | cons x l =>
        refine forM_head_error _ x l _ ?_
        by_cases hb : ((inds X'.shape).any fun p => decide (x p ≠ 0) && !inShape p X.shape) = true
        · rw [if_pos hb]
          exact ⟨_, rfl⟩
        · rw [if_neg hb, if_pos (by omega)]
          exact ⟨_, rfl⟩

/-- Non-vacuity of the theorems about `HeightFiltration`: a diagonal direction on 2×3 images is accepted, one with three coordinates is refused. -/
example : Supported [2, 3] 1 ∧ HasPixel [2, 3] ∧ ([1, -1] : List ℝ).length = [2, 3].length ∧ (∃ c ∈ ([1, -1] : List ℝ), c ≠ 0) ∧ [2, 3].length < ([1, 0, 0] : List ℝ).length ∧
    Harmless (fun _ Z => ¬ Supported Z.shape Z.images.length) (some [1, -1]) [.transform 1 (⟨[2, 3], [fun _ => (1 : ℝ)]⟩ : Batch ℝ), .setParams (some [1, 0, 0]), .fit ⟨[1, 1, 1, 1], [fun _ => 1]⟩] := by
  refine ⟨⟨⟨by simp, by simp, by simp⟩, by simp⟩, ⟨[0, 0], by unfold IsPixel; simp⟩, rfl, ⟨1, by simp, one_ne_zero⟩, by simp, ?_, trivial⟩
  intro h
  exact absurd h.2 (by simp)

/-- **C129** … and it can make it give wrong values: a `RadialFiltration` fitted on 4×2 images gives the distances to the centre; a `fit` on 2×2 images is refused because the centre has three
coordinates; afterwards `transform` of the same 4×2 image gives the coordinates of the four pixels of the refused images, and `transform` of a 2×2 image raises. -/
theorem C129_refuted_failed_refit_radial :
    let X : Batch ℚ := ⟨[4, 2], [fun _ => 1]⟩
    let o := (fit radialCls (⟨⟨none, none, some taxicab⟩, none, ⟨none, none⟩⟩ : Obj (RadialParams ℚ) (RadialAttrs ℚ)) X).1
    let o' := fit radialCls { o with params := ⟨some [0, 0, 0], none, some taxicab⟩ } ⟨[2, 2], [fun _ => 1]⟩
    let at8 := fun y : Img ℚ => [y [0, 0], y [0, 1], y [1, 0], y [1, 1], y [2, 0], y [2, 1], y [3, 0], y [3, 1]]
    (transform radialCls o 1 X).map (List.map at8) = .ok [[0, 1, 1, 2, 2, 3, 3, 4]] ∧
    o'.2 = .error .valueError ∧
    (transform radialCls o'.1 1 X).map (List.map at8) = .ok [[0, 0, 1, 0, 0, 1, 1, 1]] ∧
    (transform radialCls o'.1 1 ⟨[2, 2], [fun _ => 1]⟩).map (List.map at8) = .error .valueError := by
  refine ⟨?_, ?_, ?_, ?_⟩ <;> decide +kernel

/-- **C129** Images of another shape do not always raise: after a `fit` on 1×2 images, the three rows of a 3×2 image all get the distances of the first row. -/
theorem C129_refuted_radial_broadcast :
    let o := (fit radialCls (⟨⟨none, none, some taxicab⟩, none, ⟨none, none⟩⟩ : Obj (RadialParams ℚ) (RadialAttrs ℚ)) ⟨[1, 2], [fun _ => 1]⟩).1
    (transform radialCls o 1 ⟨[3, 2], [fun _ => 1]⟩).map (List.map fun y => [y [0, 0], y [0, 1], y [1, 0], y [1, 1], y [2, 0], y [2, 1]]) = .ok [[0, 1, 0, 1, 0, 1]] ∧
    taxicab [0, 0] (coords [2, 1]) = 3 := by
  refine ⟨?_, ?_⟩ <;> decide +kernel

/-- **C129** A `DensityFiltration` fitted on two-dimensional images counts only within slices when given three-dimensional ones: each of the four pixels of a 1×2×2 image has three active pixels within
distance 1, but gets 2. And a `fit` on such images that is refused because of a negative radius makes `transform` raise for the two-dimensional images it could treat before. -/
theorem C129_refuted_density_axes :
    let X2 : Batch ℚ := ⟨[1, 2], [fun _ => 1]⟩
    let X3 : Batch ℚ := ⟨[1, 2, 2], [fun _ => 1]⟩
    let o := (fit densityCls (⟨⟨some 1, some taxicab⟩, none, ⟨none, none⟩⟩ : Obj (DensityParams ℚ) DensityAttrs) X2).1
    let o' := fit densityCls { o with params := ⟨some (-1), some taxicab⟩ } X3
    (transform densityCls o 1 X2).map (List.map fun y => [y [0, 0], y [0, 1]]) = .ok [[2, 2]] ∧
    (transform densityCls o 1 X3).map (List.map fun y => [y [0, 0, 0], y [0, 1, 0], y [0, 0, 1], y [0, 1, 1]]) = .ok [[2, 2, 2, 2]] ∧
    o'.2 = .error .valueError ∧
    (transform densityCls o'.1 1 X2).map (List.map fun y => [y [0, 0], y [0, 1]]) = .error .valueError := by
  refine ⟨?_, ?_, ?_, ?_⟩ <;> decide +kernel

/-- Non-vacuity of the theorems about `RadialFiltration` and `DensityFiltration`: acceptable fits exist, and harmless histories with refused ones. -/
example : Supported [2, 3] 1 ∧ HasPixel [2, 3] ∧ 0 ∉ [2, 3].take 2 ∧ (∀ a b, 0 ≤ taxicab a b) ∧ IsGridMetric (fun a b : List ℚ => (List.zipWith (fun s t => |s - t|) a b).sum) 2 ∧
    Harmless (fun (q : DensityParams ℚ) Z => ¬ IsCollection Z.shape Z.images.length ∨ (Z.shape.length = [2, 3].length ∧ (q.metric = none ∨ q.radius = none ∨ ∃ a, q.radius = some a ∧ a ≤ 0)))
      ⟨some 2, some taxicab⟩ [.setParams ⟨some (-1), none⟩, .fit (⟨[5, 5], [fun _ => (1 : ℚ)]⟩ : Batch ℚ), .fit ⟨[], []⟩] := by
  refine ⟨⟨⟨by simp, by simp, by simp⟩, by simp⟩, ⟨[0, 0], by unfold IsPixel; simp⟩, by simp, taxicab_nonneg, isGridMetric_taxicab 2 (by norm_num), Or.inr ⟨rfl, Or.inl rfl⟩, Or.inl ?_, trivial⟩
  intro h
  exact h.1 rfl

end Gtda.Props
