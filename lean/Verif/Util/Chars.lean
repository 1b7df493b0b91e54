
set_option autoImplicit false
/-
`c!"abc"` is the explicit list of characters `['a', 'b', 'c']` (a notation for test data; explicit lists are
cheaper for the kernel to evaluate than `String.toList`).
-/
namespace Verif

open Lean in
/-- `c!"abc"` abbreviates `['a', 'b', 'c']`. -/
macro:max "c!" s:str : term => do
  let cs := s.getString.toList.map (fun c => (Syntax.mkCharLit c : TSyntax `term))
  `([$(cs.toArray),*])

example : c!"a\"b" = "a\"b".toList := by decide

end Verif
