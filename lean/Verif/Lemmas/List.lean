import Mathlib.Data.List.Basic
import Mathlib.Data.List.Forall2
import Mathlib.Tactic.Linarith
import Mathlib.Tactic.Ring

set_option autoImplicit false

/-! General list lemmas. -/

namespace Gtda

theorem length_flatten_uniform {α : Type _} (L : List (List α)) (d : Nat) (h : ∀ l ∈ L, l.length = d) :
    L.flatten.length = L.length * d := by
  induction L with
  | nil => simp
  | cons a t ih =>
    rw [List.flatten_cons, List.length_append, h a (by simp), ih (fun l hl => h l (by simp [hl])), List.length_cons]
    ring

theorem getElem?_flatten_uniform {α : Type _} (L : List (List α)) (d : Nat) (h : ∀ l ∈ L, l.length = d)
    (v k : Nat) (hk : k < d) : L.flatten[v * d + k]? = L[v]?.bind (·[k]?) := by
  induction L generalizing v with
  | nil => simp
  | cons a t ih =>
    have ha := h a (by simp)
    rw [List.flatten_cons]
    cases v with
    | zero => rw [List.getElem?_append_left (by omega)]; simp
    | succ v =>
      have hge : a.length ≤ (v + 1) * d + k := by rw [ha, Nat.add_mul]; omega
      rw [List.getElem?_append_right hge]
      have : (v + 1) * d + k - a.length = v * d + k := by rw [ha, Nat.add_mul]; omega
      rw [this, ih (fun l hl => h l (by simp [hl]))]
      simp

/-- filterMap that always succeeds behaves like a map. -/
theorem getElem?_filterMap_total {α β : Type _} (f : α → Option β) (L : List α) (h : ∀ a ∈ L, (f a).isSome) (i : Nat) :
    (L.filterMap f)[i]? = L[i]?.bind f := by
  induction L generalizing i with
  | nil => simp
  | cons a t ih =>
    obtain ⟨b, hb⟩ := Option.isSome_iff_exists.1 (h a (by simp))
    rw [List.filterMap_cons_some hb]
    cases i with
    | zero => simp [hb]
    | succ i => simpa using ih (fun a ha => h a (by simp [ha])) i

theorem length_filterMap_total {α β : Type _} (f : α → Option β) (L : List α) (h : ∀ a ∈ L, (f a).isSome) :
    (L.filterMap f).length = L.length := by
  induction L with
  | nil => simp
  | cons a t ih =>
    obtain ⟨b, hb⟩ := Option.isSome_iff_exists.1 (h a (by simp))
    rw [List.filterMap_cons_some hb, List.length_cons, List.length_cons, ih (fun a ha => h a (by simp [ha]))]

end Gtda
