import Verif.Spec.TvTold
/-
The messages with which a tag-value document is refused, with their line numbers.
-/
namespace Spdx.Spec

mutual
/-- A message without its line numbers. -/
def withoutLines : PMsg → PMsg
  | .atLine _ m => withoutLines m
  | .wrapped c ms => .wrapped c (allWithoutLines ms)
  | .text s => .text s
  | .invalid w v => .invalid w v
  | .constructing c fs => .constructing c fs
def allWithoutLines : List PMsg → List PMsg
  | [] => []
  | m :: ms => withoutLines m :: allWithoutLines ms
end

/-- An exception without the line numbers of its messages. -/
def errWithoutLines : PyErr → PyErr
  | .parsing ms => .parsing (ms.map withoutLines)
  | e => e

mutual
/-- The line numbers in a message. -/
def linesIn : PMsg → List Nat
  | .atLine n m => n :: linesIn m
  | .wrapped _ ms => allLinesIn ms
  | .text _ => []
  | .invalid _ _ => []
  | .constructing _ _ => []
def allLinesIn : List PMsg → List Nat
  | [] => []
  | m :: ms => linesIn m ++ allLinesIn ms
end

/-- The complaints that come without a line number: about licenses, dates, the license list version, `FilesAnalyzed`, and actors. -/
def lineless : PMsg → Bool
  | .invalid what _ => what ∈ [s%"license expression", s%"date", s%"LicenseListVersion", s%"FilesAnalyzed"]
  | .text s => s ∈ [s%"No name for Tool provided", s%"doesn't match any of person, organization or tool", s%"No name for Actor provided"]
  | _ => false

/-- A complaint about an attribute whose tag is on the line `n`. -/
def onLine (n : Nat) (m : PMsg) : PMsg := if lineless m then m else .atLine n m

/-- The complaints about the attributes of an element, each with the line of the attribute. -/
def linedFrom (L : LicText) (earlier : List Place) : List (Place × Nat) → List PMsg
  | [] => []
  | (p, n) :: ps => (p.complaints L earlier).map (onLine n) ++ linedFrom L (earlier ++ [p]) ps

/-- The attributes of the last element with their lines. -/
def lastFrom (pre : List TvAttr) (b : List (Place × Nat)) : List (TvAttr × Nat) → List (Place × Nat)
  | [] => b
  | (a, n) :: as => lastFrom (pre ++ [a]) ((if (opens a).isSome ∧ (current pre).isSome then [] else b) ++ [(⟨pre, a⟩, n)]) as

def lastLines (as : List (TvAttr × Nat)) : List (Place × Nat) := lastFrom [] [] as

/-- What is said when an element is complete: as in `closing`, but that the complaints have line numbers. -/
def closingLines (L : LicText) (as : List (TvAttr × Nat)) : List PMsg :=
  match current (as.map (·.1)) with
  | none => []
  | some c =>
    if linedFrom L [] (lastLines as) ≠ [] then [.wrapped c.name (linedFrom L [] (lastLines as))] else closing L (as.map (·.1))

def toldLinesFrom (L : LicText) (pre : List (TvAttr × Nat)) : List (TvAttr × Nat) → List PMsg
  | [] => closingLines L pre
  | (a, n) :: as => (if (opens a).isSome then closingLines L pre else []) ++ (Place.misplaced ⟨pre.map (·.1), a⟩).map (onLine n) ++
      toldLinesFrom L (pre ++ [(a, n)]) as

def infoLinedFrom (pre : List TvAttr) : List (TvAttr × Nat) → List PMsg
  | [] => []
  | (a, n) :: as => (infoComplaints pre a).map (onLine n) ++ infoLinedFrom (pre ++ [a]) as

/-- All the messages, with their line numbers. -/
def toldLines (L : LicText) (as : List (TvAttr × Nat)) : List PMsg :=
  let ms := toldLinesFrom L [] as ++ (if infoLinedFrom [] as = [] then [] else [.wrapped s%"CreationInfo" (infoLinedFrom [] as)])
  if ms ≠ [] then ms else if infoMissing (as.map (·.1)) = [] then [] else [.constructing s%"CreationInfo" (infoMissing (as.map (·.1)))]

end Spdx.Spec
