import Verif.Py.Text
/-
A JSON text without the white space between its tokens, for C87.
-/
namespace Spdx.Spec

/-- The text without white space outside of strings.  `quoted`: whether it begins within a string. -/
def minify (quoted : Bool) : Str → Str
  | [] => []
  | c :: r =>
    if quoted then
      if c = '\\' then match r with
        | [] => [c]
        | x :: r => c :: x :: minify true r
      else if c = '"' then c :: minify false r else c :: minify true r
    else if c = ' ' ∨ c = '\t' ∨ c = '\n' ∨ c = '\r' then minify false r
    else if c = '"' then c :: minify true r else c :: minify false r

end Spdx.Spec
