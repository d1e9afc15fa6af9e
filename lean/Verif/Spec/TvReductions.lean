import Verif.Model.Ply
import Verif.Model.TagValueParser
/-
What the reductions of the tag-value grammar amount to: the methods of `Parser` that set a value, in terms of the tokens they are called
with.
-/
namespace Spdx.Spec

/-- The methods that only pass on a value, or do nothing (parser.py L90-153, L215-249) -/
def silentHandlers : List Str :=
  [s%"p_start_start_attrib", s%"p_start_attrib", s%"p_attrib", s%"p_text", s%"p_line", s%"p_no_assertion", s%"p_none", s%"p_license",
   s%"p_actor_values"]

/-- The methods for `TAG error` (parser.py L155-172, L263-272) -/
def errorHandlers : List Str := [s%"p_current_element_error", s%"p_creation_info_value_error"]

/-- The methods for `TAG LINE [COMMENT text_or_line]` -/
def commentedHandlers : List Str := [s%"p_relationship", s%"p_pkg_external_refs"]

/-- The attribute that a call of the production's method, with the tokens the right-hand side stands for, handles. -/
def attrOf (e : Production × List Tok) : Option TvAttr :=
  if e.1.handler ∈ silentHandlers then none
  else if e.1.handler ∈ errorHandlers then
    match e.2 with
    | .tag t :: _ => some (.bad t)
    | _ => none
  else if e.1.handler = s%"p_unknown_tag" then some .unknown
  else if e.1.handler = s%"p_spdx_id" then
    match e.2 with
    | [_, .line s] => some (.spdxId s)
    | _ => none
  else if e.1.handler ∈ commentedHandlers then
    match e.2 with
    | [.tag t, .line s] => some (.commented t s none)
    | [.tag t, .line s, _, w] => some (.commented t s (some w))
    | _ => none
  else
    match e.2 with
    | [.tag t, v] => some (.value t v)
    | _ => none

end Spdx.Spec
