import Lean.Elab.Macro

/-!
# Texts

`c!"ab"` is the list of characters `['a', 'b']`, written out, so that the kernel need not decode a string.
-/

open Lean in
/-- The characters of a string literal as a list. -/
macro:max "c!" s:str : term => do
  let nil ← `(([] : List Char))
  s.getString.toList.foldrM (fun c r => `(List.cons $(Syntax.mkCharLit c) $r)) nil
