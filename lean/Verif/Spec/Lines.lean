import Verif.Model.TagValueLines
/- What the line number of a tag should be, and what the lexer steps over without counting it. -/
namespace Spdx.Spec

/-- The number of the line on which the text after `before` starts: lines are numbered from 1 and end with a line break. -/
def lineAfter (before : Str) : Nat := 1 + newlines before

/-- The line breaks between a colon and what comes after the blanks that follow the colon. -/
def gap (afterColon : Str) : Nat := newlines (afterColon.takeWhile isPySpace)

/-- The line breaks between the tag's colon and its value, where the value is a text in `<text>…</text>`, a checksum, a person, an
    organization, a tool or a date; for a checksum also those between the colon of the algorithm and the digits. -/
def steppedOver (p : Place) : Nat :=
  match p.tok with
  | some (.text _) | some (.tool _) | some (.org _) | some (.person _) | some (.date _) => gap (p.after.drop 1)
  | some (.checksum _) =>
    gap (p.after.drop 1) + gap ((((p.after.drop 1).dropWhile isPySpace).dropWhile (· ≠ ':')).drop 1)
  | _ => 0

/-- Every colon has something other than blanks after it on its line, or nothing but blanks until the end of the text without a line break. -/
def ColonsFollowed (text : Str) : Prop := ∀ a b, text = a ++ ':' :: b → gap b = 0

/-- The token that an attribute starts with. -/
inductive TagOf : TvAttr → Tok → Prop
  | value (tag : Str) (v : Tok) : TagOf (.value tag v) (.tag tag)
  | commented (tag line : Str) (c : Option Tok) : TagOf (.commented tag line c) (.tag tag)
  | bad (tag : Str) : TagOf (.bad tag) (.tag tag)
  | spdxId (v : Str) : TagOf (.spdxId v) (.tag s%"SPDXID")
  | unknown (name : Str) : TagOf .unknown (.unknown name)

end Spdx.Spec
