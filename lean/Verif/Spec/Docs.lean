import Verif.Model.Docs

/-!
# Specification vocabulary for docstrings
-/

set_option autoImplicit false

namespace Gtda.Spec.Docs

open Gtda.Docs

/-- `pat` occurs exactly once in the text, after `pre` and before `post`. -/
def OccursOnce (pat text pre post : List Char) : Prop := text = pre ++ pat ++ post ∧ ∀ pre' post', text = pre' ++ pat ++ post' → pre' = pre

/-- The heading of the section on parameters. -/
def parameters : List Char := "Parameters\n----------\n".toList

/-- The heading of the section on returned values. -/
def returns : List Char := "Returns\n-------\n".toList

/-- An empty line. -/
def emptyLine : List Char := ['\n', '\n']

/-- The text `tokens.flatten` cut into its words and pieces between words: each piece consists of word characters or of other characters, and a word is followed by a piece of other
characters, so that words are not cut. -/
def IsWords (isWord : Char → Bool) : List (List Char) → Prop
  | [] => True
  | [t] => t ≠ [] ∧ ((∀ c ∈ t, isWord c = true) ∨ (∀ c ∈ t, isWord c = false))
  | t :: t' :: ts => t ≠ [] ∧ (((∀ c ∈ t, isWord c = true) ∧ ∀ c ∈ t', isWord c = false) ∨ (∀ c ∈ t, isWord c = false)) ∧ IsWords isWord (t' :: ts)

/-- A text in backquotes. -/
def quoted (t : List Char) : List Char := '`' :: t ++ ['`']

/-- The names of arguments of `fit_transform`. -/
def names : List (List Char) := ["X".toList, "y".toList, "fit_params".toList]

/-- The text with names of arguments put in backquotes. -/
def quoteNames (tokens : List (List Char)) : List Char := (tokens.map fun t => if t ∈ names then quoted t else t).flatten

end Gtda.Spec.Docs
