import Verif.Model.Ids
import Verif.Model.Ext
import Verif.Py.Dict
import Verif.Py.Sort
/- spdx/document_utils.py and the rest of spdx/spdx_element_utils.py -/
namespace Spdx

/-- One step of the loop in `create_list_without_duplicates` (spdx/document_utils.py L53-55). -/
def dedupStep {α : Type} (eq : α → α → Bool) (kept : List α) (x : α) : List α :=
  if kept.any (fun y => eq y x) then kept else kept ++ [x]

/-- spdx/document_utils.py L51-57 `create_list_without_duplicates`, for entries compared with `eq` -/
def dedup {α : Type} (eq : α → α → Bool) (l : List α) : List α := l.foldl (dedupStep eq) []

/-- `==` on entries of license lists: `SpdxNoAssertion`/`SpdxNone` are equal to themselves only
    (spdx/model/spdx_no_assertion.py L18-19, spdx/model/spdx_none.py L18-19). -/
def licEntryEq (X : Ext) : OrSpecial LicExpr → OrSpecial LicExpr → Bool
  | .val a, .val b => X.licEq a b
  | .noAssertion, .noAssertion => true
  | .none, .none => true
  | _, _ => false

/-- `dedup` for entries with structural equality -/
def dedupEq {α : Type} [DecidableEq α] (l : List α) : List α := dedup (fun a b => decide (a = b)) l

/-- spdx/document_utils.py L43-46 for each kind of element: every field of type list, in turn. -/
def CreationInfo.dedup (c : CreationInfo) : CreationInfo :=
  { c with creators := dedupEq c.creators, externalDocumentRefs := dedupEq c.externalDocumentRefs }
def File.dedup (X : Ext) (f : File) : File :=
  { f with
    checksums := dedupEq f.checksums, fileTypes := dedupEq f.fileTypes,
    licenseInfoInFile := Spdx.dedup (licEntryEq X) f.licenseInfoInFile,
    contributors := dedupEq f.contributors, attributionTexts := dedupEq f.attributionTexts }
def Package.dedup (X : Ext) (p : Package) : Package :=
  { p with
    checksums := dedupEq p.checksums, licenseInfoFromFiles := Spdx.dedup (licEntryEq X) p.licenseInfoFromFiles,
    externalReferences := dedupEq p.externalReferences, attributionTexts := dedupEq p.attributionTexts }
def Snippet.dedup (X : Ext) (s : Snippet) : Snippet :=
  { s with
    licenseInfoInSnippet := Spdx.dedup (licEntryEq X) s.licenseInfoInSnippet,
    attributionTexts := dedupEq s.attributionTexts }
def ExtractedLicensingInfo.dedup (e : ExtractedLicensingInfo) : ExtractedLicensingInfo :=
  { e with crossReferences := dedupEq e.crossReferences }

/-- spdx/document_utils.py L33-48 `create_document_without_duplicates` (a deep copy; the argument is not changed) -/
def dedupDocument (X : Ext) (d : Document) : Document :=
  { d with
    creationInfo := d.creationInfo.dedup, files := d.files.map (File.dedup X), packages := d.packages.map (Package.dedup X),
    snippets := d.snippets.map (Snippet.dedup X),
    extractedLicensingInfo := d.extractedLicensingInfo.map ExtractedLicensingInfo.dedup }

/-- `Union[Package, File, Snippet]` -/
inductive Element where
  | package (p : Package)
  | file (f : File)
  | snippet (s : Snippet)
deriving DecidableEq

/-- the identifier of an element -/
def Element.spdxId : Element → Str
  | .package p => p.spdxId
  | .file f => f.spdxId
  | .snippet s => s.spdxId

/-- spdx/document_utils.py L25-30 `get_contained_spdx_elements` -/
def containedElements (d : Document) : Dict Str Element :=
  ((Dict.update [] (d.packages.map fun p => (p.spdxId, .package p))).update
    (d.files.map fun f => (f.spdxId, .file f))).update (d.snippets.map fun s => (s.spdxId, .snippet s))

/-- spdx/document_utils.py L18-22 `get_element_from_spdx_id` -/
def getElement (d : Document) (id : Str) : Option Element := (containedElements d).get? id

/-- What `get_full_element_spdx_id` can raise. -/
inductive FullIdError where
  /-- `ValueError` of the tuple unpacking (more than one colon) -/
  | unpack
  /-- `ValueError("external id ... not found ...")` -/
  | notFound (ref : Str)
deriving Repr, DecidableEq

/-- spdx/spdx_element_utils.py L31-53 `get_full_element_spdx_id` -/
def getFullElementId (id : Str) (ns : Str) (refs : List ExternalDocumentRef) : Except FullIdError Str :=
  if ':' ∉ id then .ok (ns ++ s%"#" ++ id)
  else match splitOn ':' id with
    | [ext, loc] =>
      match refs.find? (fun r => r.documentRefId = ext) with
      | some r => if r.documentUri = [] then .error (.notFound ext) else .ok (r.documentUri ++ s%"#" ++ loc)
      | none => .error (.notFound ext)
    | _ => .error .unpack

/-- spdx/spdx_element_utils.py L60-63: the last SHA1 value wins -/
def recordedSha1 (f : File) : Option Str :=
  f.checksums.foldl (fun acc c => if c.algorithm = .SHA1 then some c.value else acc) none

/-- L58-72: the digest of one file; `fileSha1 name` is the digest of the file on disk (`none`: it does not exist). -/
def fileHash (fileSha1 : Str → Option Str) (f : File) : Except Str Str :=
  match recordedSha1 f with
  | some v => if v = [] then
      (match fileSha1 f.name with | some h => .ok h | none => .error f.name)
    else .ok v
  | none => match fileSha1 f.name with | some h => .ok h | none => .error f.name

/-- spdx/spdx_element_utils.py L56-77 `calculate_package_verification_code`; `sha1` is the hex digest of a text's UTF-8 bytes, the
    error is the name of the missing file. -/
def verificationCode (sha1 : Str → Str) (fileSha1 : Str → Option Str) (files : List File) : Except Str PackageVerificationCode := do
  let hashes ← files.mapM (fileHash fileSha1)
  return { value := sha1 (sortStr hashes).flatten }

/-- A hash object of `hashlib`: the state after feeding bytes, and its hex digest. -/
structure Hasher where
  σ : Type
  init : σ
  update : σ → List UInt8 → σ
  digest : σ → Str

/-- spdx/spdx_element_utils.py L84-91: the loop reading at most `n` bytes at a time (`n = 65536`), from the remaining content. -/
def hashLoop (H : Hasher) (n : Nat) (hn : 0 < n) (s : H.σ) (rest : List UInt8) : H.σ :=
  match h : rest.take n with
  | [] => s
  | b :: bs => hashLoop H n hn (H.update s (b :: bs)) (rest.drop n)
termination_by rest.length
decreasing_by
  have : rest ≠ [] := by rintro rfl; simp at h
  have : 0 < rest.length := List.length_pos_iff.2 this
  simp only [List.length_drop]; omega

/-- spdx/spdx_element_utils.py L80-91 `calculate_file_checksum` of a file with the given content -/
def fileChecksum (H : Hasher) (n : Nat) (hn : 0 < n) (content : List UInt8) : Str := H.digest (hashLoop H n hn H.init content)

end Spdx
