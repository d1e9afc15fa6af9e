import Verif.Model.Enums
/- spdx/model/actor.py and spdx/parser/actor_parser.py -/
namespace Spdx

/-- `actor_type.name.title()` (spdx/model/actor.py L32) -/
def ActorType.title : ActorType → Str
  | .PERSON => s%"Person"
  | .ORGANIZATION => s%"Organization"
  | .TOOL => s%"Tool"

/-- spdx/model/actor.py L27-32 `to_serialized_string`; the e-mail is written only when it is a non-empty text. -/
def Actor.toSerialized (a : Actor) : Str :=
  a.actorType.title ++ [':', ' '] ++ a.name ++
    (match a.email with
     | some e => if e = [] then [] else s%" (" ++ e ++ [')']
     | none => [])

/-- Failures of `ActorParser.parse_actor`. -/
inductive ActorError where
  | noToolName      -- "No name for Tool provided"
  | noMatch         -- "doesn't match any of person, organization or tool"
  | noName          -- "No name for Actor provided"
deriving Repr, DecidableEq

/-- `s` without its prefix `p`, if it has it. -/
def dropPrefix? (p s : Str) : Option Str := if p.isPrefixOf s then some (s.drop p.length) else none

/-- A text without one final newline: the end positions accepted by `$`. -/
def dropFinalNl (s : Str) : Str :=
  match s.reverse with
  | '\n' :: r => r.reverse
  | _ => s

/-- Group 1 of `^Tool:\s*(.+)` on the text after `Tool:`. `.` is any character but a newline. When everything is white
    space, `\s*` gives back characters until one non-newline character is left for the group. -/
def toolGroup (rest : Str) : Option Str :=
  let r := rest.dropWhile isPySpace
  if r ≠ [] then some (r.takeWhile (· ≠ '\n'))
  else match (rest.reverse.dropWhile (· = '\n')) with
    | [] => none
    | c :: _ => some [c]

/-- Split at the last occurrence of a character: text before and after it. -/
def splitLast (sep : Char) (s : Str) : Option (Str × Str) :=
  match s.reverse.dropWhile (· ≠ sep) with
  | [] => none
  | _ :: before => some (before.reverse, (s.reverse.takeWhile (· ≠ sep)).reverse)

/-- What `(?:(.*)\((.*)\)|(.*))$` matches after `\s*` has taken all white space: groups 1 and 2, or group 3.
    Greedy group 1 ends at the last opening parenthesis before the final closing one. `none`: no match, which happens when
    a newline other than a final one remains (giving back white space does not help then). -/
def actorGroups (rest : Str) : Option ((Str × Str) ⊕ Str) :=
  let t := dropFinalNl (rest.dropWhile isPySpace)
  if '\n' ∈ t then none
  else match t.reverse with
    | ')' :: r => match splitLast '(' r.reverse with
      | some (g1, g2) => some (.inl (g1, g2))
      | none => some (.inr t)
    | _ => some (.inr t)

/-- spdx/parser/actor_parser.py L36-53, the rest of `parse_actor`: build the person or organization from the groups. -/
def actorFromGroups (ty : ActorType) : (Str × Str) ⊕ Str → Except ActorError Actor
  | .inr g3 => if g3 ≠ [] then .ok { actorType := ty, name := strip g3 } else .error .noName
  | .inl (g1, g2) =>
    if g1 = [] then .error .noName
    else
      let email := strip g2
      .ok { actorType := ty, name := strip g1, email := if email = [] then none else some email }

/-- spdx/parser/actor_parser.py L15-53 `parse_actor` -/
def parseActor (s : Str) : Except ActorError Actor :=
  match (dropPrefix? s%"Tool:" s).bind toolGroup with
  | some g =>
    if strip g = [] then .error .noToolName else .ok { actorType := .TOOL, name := strip g }
  | none =>
    match (dropPrefix? s%"Person:" s).bind actorGroups with
    | some gs => actorFromGroups .PERSON gs
    | none =>
      match (dropPrefix? s%"Organization:" s).bind actorGroups with
      | some gs => actorFromGroups .ORGANIZATION gs
      | none => .error .noMatch

end Spdx
