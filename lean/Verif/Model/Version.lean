import Verif.Model.Data
/- spdx/model/version.py -/
namespace Spdx

/-- Body of the pattern `(\d+)\.(\d+)` on a text without the optional final newline. -/
def versionBody (s : Str) : Option Version :=
  match splitOn '.' s with
  | [a, b] =>
    if a ≠ [] ∧ b ≠ [] ∧ a.all isPyDigit ∧ b.all isPyDigit then do
      some { major := ← digitsVal? a, minor := ← digitsVal? b }
    else none
  | _ => none

/-- spdx/model/version.py L22-28 `Version.from_string`: pattern `^(\d+)\.(\d+)$`, where `$` admits a final newline.
    `none` models `ValueError`. -/
def versionFromString (s : Str) : Option Version :=
  match versionBody s with
  | some v => some v
  | none => match s.reverse with
    | '\n' :: r => versionBody r.reverse
    | _ => none

/-- spdx/model/version.py L34-35 `__str__` -/
def Version.toStr (v : Version) : Str := natStr v.major ++ ['.'] ++ natStr v.minor

end Spdx
