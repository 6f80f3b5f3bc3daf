/-!
Notation for the characters of a text: `chars! "ab"` is `['a', 'b']`.  The kernel computes with such a list much faster than with
`"ab".toList`.
-/
namespace NuTo

macro "chars! " s:str : term => do
  let cs := (s.getString.toList.map Lean.Syntax.mkCharLit).toArray
  `([$cs,*])

example : chars! "a b" = "a b".toList := rfl

end NuTo
