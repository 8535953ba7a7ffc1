import Verif.Py.Basic

/-!
# Docstrings of `fit_transform`

Models `gtda/utils/_docs.py`. Texts are lists of characters. The docstring of scikit-learn's `TransformerMixin.fit_transform` is a parameter. Word characters (for `\b` in regular
expressions) are given by a function.
-/

set_option autoImplicit false

namespace Gtda.Docs

open Py

/-- Texts. Used in `getInputs`, gtda/utils/_docs.py:10-24. -/
abbrev Text := List Char

/-- `inputs_start`, gtda/utils/_docs.py:10. -/
def inputsStart : Text := "Parameters\n----------\n".toList

/-- `inputs_end`, gtda/utils/_docs.py:11. -/
def inputsEnd : Text := "Returns\n-------\n".toList

/-- `outputs_end`, gtda/utils/_docs.py:12. -/
def outputsEnd : Text := "\n\n".toList

/-- The text before and after each occurrence of `pat`, from the left: where a regular expression starting with `pat` can match. Used in `getPreamble`, gtda/utils/_docs.py:15-18. -/
def occurrences (pat : Text) : Text → List (Text × Text)
  | [] => if pat = [] then [([], [])] else []
  | c :: s => (if pat.isPrefixOf (c :: s) then [([], (c :: s).drop pat.length)] else []) ++ (occurrences pat s).map fun p => (c :: p.1, p.2)

/-- `re_search.group(1)`; `AttributeError` if `re_search` is `None`. Used in `getPreamble`, gtda/utils/_docs.py:18. -/
def group : Option Text → PyM Text
  | some t => .ok t
  | none => .error .attributeError

/-- `get_preamble_docs`, gtda/utils/_docs.py:15-18: `^(.*)inputs_start` with a greedy group which may contain newlines. -/
def getPreamble (docs : Text) : PyM Text := group ((occurrences inputsStart docs).getLast?.map Prod.fst)

/-- `re.search(f'{a}(.*){b}', docs, flags=re.DOTALL)`: the first occurrence of `a` which is followed by `b`, then the last such `b`. Used in `getInputs`, gtda/utils/_docs.py:21-31. -/
def between (a b docs : Text) : Option Text :=
  ((occurrences a docs).filterMap fun p => (occurrences b p.2).getLast?.map Prod.fst).head?

/-- `get_inputs_docs`, gtda/utils/_docs.py:21-24. -/
def getInputs (docs : Text) : PyM Text := group (between inputsStart inputsEnd docs)

/-- `get_outputs_docs`, gtda/utils/_docs.py:27-33: up to the last empty line after the start of the section, or to the end of the text if there is none. -/
def getOutputs (docs : Text) : PyM Text :=
  match between inputsEnd outputsEnd docs with
  | some t => .ok t
  | none => group ((occurrences inputsEnd docs).head?.map Prod.snd)

/-- `str.replace`; the first argument counts characters still to be skipped. Used in `makeDocs`, gtda/utils/_docs.py:66-69. -/
def replaceGo (old new : Text) : Nat → Text → Text
  | _, [] => []
  | k + 1, _ :: s => replaceGo old new k s
  | 0, c :: s => if old.isPrefixOf (c :: s) then new ++ replaceGo old new (old.length - 1) s else c :: replaceGo old new 0 s

/-- `docs.replace(old, new)`: all occurrences from the left, without overlaps; an empty `old` occurs before every character and at the end. Used in `makeDocs`,
gtda/utils/_docs.py:66-69. -/
def replace (docs old new : Text) : Text :=
  if old = [] then (docs.flatMap fun c => new ++ [c]) ++ new else replaceGo old new 0 docs

/-- The first character of a text is a word character. Used in `wordSub`, gtda/utils/_docs.py:38-40. -/
def startsWord (isWord : Char → Bool) : Text → Bool
  | [] => false
  | c :: _ => isWord c

/-- `re.sub`, with the character before the current position being a word character or not, and a number of characters to skip. Used in `wordSub`, gtda/utils/_docs.py:38-40. -/
def wordGo (isWord : Char → Bool) (w new : Text) : Bool → Nat → Text → Text
  | _, _, [] => []
  | _, k + 1, c :: s => wordGo isWord w new (isWord c) k s
  | prev, 0, c :: s =>
      if !prev && w.isPrefixOf (c :: s) && !startsWord isWord ((c :: s).drop w.length) then new ++ wordGo isWord w new (isWord c) (w.length - 1) s
      else c :: wordGo isWord w new (isWord c) 0 s

/-- `re.sub(r'\bw\b', new, docs)` for a word `w`, gtda/utils/_docs.py:38-40. -/
def wordSub (isWord : Char → Bool) (w new docs : Text) : Text := wordGo isWord w new false 0 docs

/-- `intro_docs`, gtda/utils/_docs.py:38-40. -/
def introDocs (isWord : Char → Bool) (intro : Text) : Text :=
  wordSub isWord "fit_params".toList "`fit_params`".toList (wordSub isWord ['y'] "`y`".toList (wordSub isWord ['X'] "`X`".toList intro))

/-- `make_fit_transform_docs`, gtda/utils/_docs.py:36-70, with the standard docstring `std` and the sections extracted from it when the module is loaded. `None` instead of a docstring is a
`TypeError` of `re.search`. -/
def makeDocs (isWord : Char → Bool) (std : Text) (fitDocs transformDocs : Option Text) : PyM Text := do
  let intro ← getPreamble std
  let inputs₀ ← getInputs std
  let outputs₀ ← getOutputs std
  match fitDocs with
  | none => .error .typeError
  | some fd =>
      let inputs ← getInputs fd
      match transformDocs with
      | none => .error .typeError
      | some td =>
          let outputs ← getOutputs td
          pure (replace (replace (replace std intro (introDocs isWord intro)) inputs₀ inputs) outputs₀ outputs)

/-- A method: its docstring and what a call returns. Used in `adapt`, gtda/utils/_docs.py:73-114. -/
structure Method (I O : Type) where
  doc : Option Text
  call : I → PyM O

/-- A class as a dictionary of its methods, its own and inherited ones. Used in `adapt`, gtda/utils/_docs.py:73-114. -/
abbrev Class (I O : Type) := String → Option (Method I O)

/-- `getattr` of a class. Used in `adapt`, gtda/utils/_docs.py:100-113. -/
def getAttr {I O : Type} (c : Class I O) (n : String) : PyM (Method I O) :=
  match c n with
  | some m => .ok m
  | none => .error .attributeError

/-- `adapt_fit_transform_docs`, gtda/utils/_docs.py:73-114. -/
def adapt {I O : Type} (isWord : Char → Bool) (std : Text) (c : Class I O) : PyM (Class I O) := do
  let fit ← getAttr c "fit"
  let transform ← getAttr c "transform"
  let original ← getAttr c "fit_transform"
  let docs ← makeDocs isWord std fit.doc transform.doc
  pure fun n => if n = "fit_transform" then some { doc := some docs, call := fun args => original.call args } else c n

end Gtda.Docs
