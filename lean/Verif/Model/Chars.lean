/-! # Text literals as lists of characters -/
namespace Uax29

open Lean in
/-- `chars "ab"` is `['a', 'b']`, so that the kernel need not decode the string. -/
macro "chars " s:str : term => do
  let cs := s.getString.toList.map fun c => Syntax.mkCharLit c
  `(([$(cs.toArray),*] : List Char))

end Uax29
