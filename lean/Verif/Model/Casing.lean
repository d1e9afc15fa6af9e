import Verif.Py.Text
/- spdx/casing_tools.py.  Letters are ASCII letters; Python's Unicode case tables are not modelled (every name the
   tool converts is ASCII). -/
namespace Spdx

def isLetterAZ (c : Char) : Bool := isLowerAZ c || isUpperAZ c
def toUpperC (c : Char) : Char := if isLowerAZ c then Char.ofNat (c.toNat - 32) else c
def toLowerC (c : Char) : Char := if isUpperAZ c then Char.ofNat (c.toNat + 32) else c

/-- `re.sub(r"[_\-]+", " ", s)`; the flag says that the previous character already belonged to a run. -/
def collapseSeps : Bool → Str → Str
  | _, [] => []
  | inRun, c :: cs =>
    if c = '_' ∨ c = '-' then (if inRun then collapseSeps true cs else ' ' :: collapseSeps true cs)
    else c :: collapseSeps false cs

/-- `str.title()`: a letter after a letter is lowered, any other letter is raised. -/
def titleAux : Bool → Str → Str
  | _, [] => []
  | prev, c :: cs =>
    if isLetterAZ c then (if prev then toLowerC c else toUpperC c) :: titleAux true cs
    else c :: titleAux false cs

/-- spdx/casing_tools.py L7-9. `none` models the `IndexError` of `[0]` on the empty text. -/
def snakeToCamel (s : Str) : Option Str :=
  match (titleAux false (collapseSeps false s)).filter (· ≠ ' ') with
  | [] => none
  | c :: cs => some (toLowerC c :: cs)

/-- `re.sub("(?!^)([A-Z]+)", r"_\1", ·)` on everything after the first character; the flag says that the previous
    character already belongs to a run of capitals. -/
def insertUnderscores : Bool → Str → Str
  | _, [] => []
  | inRun, c :: cs =>
    if isUpperAZ c then (if inRun then c :: insertUnderscores true cs else '_' :: c :: insertUnderscores true cs)
    else c :: insertUnderscores false cs

/-- spdx/casing_tools.py L12-14 -/
def camelToSnake (s : Str) : Str :=
  (match s with
   | [] => []
   | c :: cs => c :: insertUnderscores false cs).map toLowerC

end Spdx
