import Verif.Spec.Valid
/- A concrete document (and a concrete instance of the external functions) used to show that hypotheses of theorems can be met. -/
namespace Spdx.Example
open Spdx

def sha : Checksum := { algorithm := .SHA1, value := s%"d6a770ba38583ed4bb4525bd96e50461655d2758" }

def info : CreationInfo :=
  { spdxVersion := s%"SPDX-2.3", spdxId := s%"SPDXRef-DOCUMENT", name := s%"doc", documentNamespace := s%"https://e.org/d",
    creators := [{ actorType := .PERSON, name := s%"Ann", email := some s%"a@e.org" }],
    created := { year := 2022, month := 1, day := 1 },
    externalDocumentRefs := [{ documentRefId := s%"DocumentRef-ext", documentUri := s%"https://e.org/x", checksum := sha }],
    licenseListVersion := some { major := 3, minor := 20 } }

def file : File :=
  { name := s%"./a.py", spdxId := s%"SPDXRef-File", checksums := [sha], fileTypes := [.SOURCE],
    licenseConcluded := some (.val (.and [.sym s%"MIT", .sym s%"LicenseRef-1"])),
    licenseInfoInFile := [.val (.sym s%"MIT"), .noAssertion], copyrightText := some (.val s%"(c) Ann") }

def package : Package :=
  { spdxId := s%"SPDXRef-Package", name := s%"pkg", downloadLocation := .val s%"https://e.org/p.tgz", version := some s%"1.0",
    verificationCode := some { value := s%"85ed0817af83a24ad8da68c2b5094de69833983c", excludedFiles := [s%"./x.spdx"] },
    checksums := [sha], licenseConcluded := some .noAssertion, licenseInfoFromFiles := [.val (.sym s%"MIT"), .none],
    supplier := some .noAssertion,
    externalReferences := [{ category := .PACKAGE_MANAGER, referenceType := s%"purl", locator := s%"pkg:a/b@1" }],
    primaryPackagePurpose := some .LIBRARY }

def barePackage : Package :=
  { spdxId := s%"SPDXRef-Bare", name := s%"bare", downloadLocation := .none, filesAnalyzed := false }

def snippet : Snippet :=
  { spdxId := s%"SPDXRef-Snippet", fileSpdxId := s%"SPDXRef-File", byteRange := (1, 20), lineRange := some (1, 3) }

def annotation : Annotation :=
  { spdxId := s%"SPDXRef-File", annotationType := .REVIEW, annotator := { actorType := .TOOL, name := s%"scan" },
    annotationDate := { year := 2022, month := 2, day := 3 }, annotationComment := s%"ok" }

def extracted : ExtractedLicensingInfo :=
  { licenseId := some s%"LicenseRef-1", extractedText := some s%"text", crossReferences := [s%"https://e.org/l"] }

def describes (id : Str) : Relationship :=
  { spdxElementId := s%"SPDXRef-DOCUMENT", relationshipType := .DESCRIBES, relatedSpdxElementId := .val id }

def doc : Document :=
  { creationInfo := info, packages := [package, barePackage], files := [file], snippets := [snippet], annotations := [annotation],
    relationships :=
      [describes s%"SPDXRef-Package", describes s%"SPDXRef-Bare",
       { spdxElementId := s%"SPDXRef-Package", relationshipType := .CONTAINS, relatedSpdxElementId := .val s%"SPDXRef-File" },
       { spdxElementId := s%"SPDXRef-Package", relationshipType := .DEPENDS_ON, relatedSpdxElementId := .val s%"DocumentRef-ext:SPDXRef-o" },
       { spdxElementId := s%"SPDXRef-Bare", relationshipType := .DEPENDS_ON, relatedSpdxElementId := .noAssertion }],
    extractedLicensingInfo := [extracted] }

/-- A stand-in for the external functions. -/
def ext : Ext :=
  { isWord := fun c => c.isAlphanum || c == '_', isAbsUri := fun u => s%"https:".isPrefixOf u, isUri := fun u => s%"https:".isPrefixOf u,
    uriHasScheme := fun u => u.contains ':',
    licInvalidSymbols := fun e => match e with
      | .and l => l.filterMap fun x => match x with
        | .sym s => if s = s%"MIT" then none else some s
        | _ => none
      | .sym s => if s = s%"MIT" then [] else [s]
      | _ => [],
    licStrictParseError := fun _ => none,
    licEq := fun a b => decide (a = b) }

/-- The same document in SPDX-2.2, without what 2.2 does not know. -/
def doc22 : Document :=
  { doc with
    creationInfo := { info with spdxVersion := s%"SPDX-2.2" },
    packages := [{ package with primaryPackagePurpose := none, copyrightText := some .none, licenseDeclared := some .none },
                 { barePackage with licenseConcluded := some .none, copyrightText := some .none, licenseDeclared := some .none }],
    files := [file],
    snippets := [{ snippet with licenseConcluded := some .none, copyrightText := some .none }] }

end Spdx.Example
