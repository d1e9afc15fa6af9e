import Verif.Model.LdContext
import Verif.Py.Json
/- What a JSON-LD document says: the expansion of keys and values under a context (JSON-LD 1.1, sections 3.1, 4.1 and 4.2), and what
   the vocabulary of SPDX 3 knows about classes, properties and individuals. -/
namespace Spdx.Spec.Vocab
open Spdx

/-! ### Expansion -/

/-- A compact IRI `prefix:suffix` stands for the IRI of the prefix followed by the suffix.  A text without a colon, one like
    `http://...` and one whose prefix is not known stand for themselves. -/
def compactIri (ctx : List (Str × LdTerm)) (s : Str) : Str :=
  let pre := s.takeWhile (· ≠ ':')
  match s.drop pre.length with
  | [] => s
  | _ :: rest =>
    if s%"//".isPrefixOf rest then s
    else match ctx.lookup pre with
      | some (.simple iri) => if iri.getLast? = some '/' ∨ iri.getLast? = some '#' then iri ++ rest else s
      | _ => s

/-- the IRI of a term; a key that is no term is dropped -/
def termIri (ctx : List (Str × LdTerm)) (k : Str) : Option Str :=
  match ctx.lookup k with
  | some (.simple iri) => some (compactIri ctx iri)
  | some (.prop id _ _) => some (compactIri ctx id)
  | none => none

/-- what a text can mean: a thing, a text of some datatype, or nothing -/
inductive Meaning where
  | iri (i : Str)
  | literal (datatype text : Str)
  | nothing
deriving DecidableEq

/-- what a text means that is looked up among the terms: the key's own terms first, then those of the document, then the key's vocabulary -/
def vocabMeaning (ctx : List (Str × LdTerm)) (own : List (Str × Str)) (s : Str) : Meaning :=
  match own.lookup s with
  | some i => .iri (compactIri ctx i)
  | none => match termIri ctx s with
    | some i => .iri i
    | none =>
      if ':' ∈ s then .iri (compactIri ctx s)
      else match own.lookup s%"@vocab" with
        | some v => .iri (compactIri ctx v ++ s)
        | none => .nothing

/-- what a text means under a key -/
def meaning (ctx : List (Str × LdTerm)) (k s : Str) : Meaning :=
  match ctx.lookup k with
  | some (.prop _ type own) =>
    if type = s%"@id" then .iri (compactIri ctx s)
    else if type = s%"@vocab" then vocabMeaning ctx own s
    else .literal (compactIri ctx type) s
  | some (.simple _) => .literal s%"http://www.w3.org/2001/XMLSchema#string" s
  | none => .nothing

/-- the datatype of a number under a key -/
def numberType (ctx : List (Str × LdTerm)) (k : Str) : Option Str :=
  match ctx.lookup k with
  | some (.prop _ type _) => if type = s%"@id" ∨ type = s%"@vocab" then none else some (compactIri ctx type)
  | _ => none

/-! ### The vocabulary -/

/-- the IRI of a name in the vocabulary -/
def owlIri (s : Str) : Str := compactIri (owlPrefixes.map fun p => (p.1, .simple p.2)) s

/-- the IRI is a class -/
def IsClass (c : Str) : Prop := ∃ n ∈ owlGraph, owlIri n.id = c ∧
  (n.types = .one s%"owl:Class" ∨ n.types = .many [s%"owl:Class", s%"sh:NodeShape"])

/-- one class is another one or, directly or not, below it -/
inductive SubClass : Str → Str → Prop
  | refl (c : Str) : SubClass c c
  | step (n : OwlNode) (p d : Str) (hn : n ∈ owlGraph) (hp : n.parent = some p) (h : SubClass (owlIri p) d) : SubClass (owlIri n.id) d

/-- instances of a class can have a property, with values of a kind: the class or one above it says so -/
def HasField (c p : Str) (kind : ValueKind) : Prop :=
  ∃ n ∈ owlGraph, SubClass c (owlIri n.id) ∧ ∃ s ∈ n.shapes, owlIri s.path = p ∧ s.kind = kind

/-- the class (named as in the vocabulary) is an enumeration -/
def Enumeration (c : Str) : Prop := ∃ n ∈ owlGraph, n.types = .many [s%"owl:NamedIndividual", c]

/-- the IRI is a member of an enumeration -/
def Individual (c i : Str) : Prop := ∃ n ∈ owlGraph, n.types = .many [s%"owl:NamedIndividual", c] ∧ owlIri n.id = i

/-! ### A document that says something at every place -/

/-- the values of a field -/
def values : Json → List Json
  | .null => []
  | .arr l => l
  | v => [v]

/-- A value is of the kind the vocabulary asks for: a text of the datatype, a member of the enumeration, a reference to a thing,
    or an object of the class. -/
def ValueOk (k : Str) : ValueKind → Json → Prop
  | .data d, .str s => meaning contextFile k s = .literal (owlIri d) s
  | .data d, .num _ => numberType contextFile k = some (owlIri d)
  | .cls c, .str s => ∃ i, meaning contextFile k s = .iri i ∧ (Enumeration c → Individual c i)
  | .cls c, .obj fs => ∃ t i, fs.lookup s%"@type" = some (.str t) ∧ termIri contextFile t = some i ∧ SubClass i (owlIri c)
  | _, _ => False

/-- a field of an object of a class is one of the vocabulary for this class, and so are its values -/
def FieldOk (c : Str) (f : Str × Json) : Prop :=
  f.1 = s%"@type" ∨ f.1 = s%"@id" ∨
    ∃ p kind, termIri contextFile f.1 = some p ∧ HasField c p kind ∧ ∀ v ∈ values f.2, ValueOk f.1 kind v

/-- an object has a class of the vocabulary and only fields of it -/
def ObjectOk (fs : List (Str × Json)) : Prop :=
  ∃ t c, fs.lookup s%"@type" = some (.str t) ∧ termIri contextFile t = some c ∧ IsClass c ∧ ∀ f ∈ fs, FieldOk c f

mutual
/-- the objects in a tree, at any depth -/
def objects : Json → List (List (Str × Json))
  | .obj fs => fs :: objectsFields fs
  | .arr l => objectsList l
  | _ => []
def objectsList : List Json → List (List (Str × Json))
  | [] => []
  | j :: l => objects j ++ objectsList l
def objectsFields : List (Str × Json) → List (List (Str × Json))
  | [] => []
  | (_, j) :: l => objects j ++ objectsFields l
end

/-- every object in a tree is understood: its class, its fields and their values are those of the vocabulary -/
def Understood (j : Json) : Prop := ∀ fs ∈ objects j, ObjectOk fs

end Spdx.Spec.Vocab
