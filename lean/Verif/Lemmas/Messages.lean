import Verif.Lemmas.Validation
/- Which kinds of message the parts of a document can produce. -/
namespace Spdx

/-- Messages that only the document-level checks produce. -/
def Msg.isGlobal : Msg → Bool
  | .versionUnsupported _ | .versionMismatch _ _ | .cancelled | .noDescribes _ | .duplicateIds _ => true
  | _ => false

theorem mem_msgIf {c : Prop} [Decidable c] {m : Msg} {x : Ctx} {v : VMsg} (h : v ∈ msgIf c m x) : v.msg = m := by
  unfold msgIf at h; split at h <;> simp_all

/-- No element of a list of messages is document-level. -/
def LocalMsgs (l : List VMsg) : Prop := ∀ v ∈ l, v.msg.isGlobal = false

theorem LocalMsgs.nil : LocalMsgs [] := by intro v h; simp at h
theorem LocalMsgs.app {a b : List VMsg} (ha : LocalMsgs a) (hb : LocalMsgs b) : LocalMsgs (a ++ b) := by
  intro v h; rcases List.mem_append.1 h with h | h
  · exact ha v h
  · exact hb v h
theorem LocalMsgs.flat {α : Type} {l : List α} {f : α → List VMsg} (h : ∀ a, LocalMsgs (f a)) : LocalMsgs (l.flatMap f) := by
  intro v hv; obtain ⟨a, -, ha⟩ := List.mem_flatMap.1 hv; exact h a v ha
theorem LocalMsgs.ite {c : Prop} [Decidable c] {a b : List VMsg} (ha : LocalMsgs a) (hb : LocalMsgs b) : LocalMsgs (if c then a else b) := by
  split <;> assumption
theorem LocalMsgs.msg {c : Prop} [Decidable c] {m : Msg} {x : Ctx} (h : m.isGlobal = false) : LocalMsgs (msgIf c m x) := by
  intro v hv; rw [mem_msgIf hv]; exact h
theorem LocalMsgs.one {m : Msg} {x : Ctx} (h : m.isGlobal = false) : LocalMsgs [⟨m, x⟩] := by
  intro v hv; simp only [List.mem_singleton] at hv; rw [hv]; exact h
theorem LocalMsgs.ids {l : List IdMsg} {x : Ctx} : LocalMsgs (l.map (⟨.spdxId ·, x⟩)) := by
  intro v hv; obtain ⟨m, -, rfl⟩ := List.mem_map.1 hv; rfl

theorem local_actor (a : Actor) (p : Str) : LocalMsgs (validateActor a p) := by
  unfold validateActor; split
  · exact .one rfl
  · exact .nil
theorem local_checksum (c : Checksum) (p v : Str) : LocalMsgs (validateChecksum c p v) := .ite (.one rfl) (.msg rfl)
theorem local_uri (X : Ext) (u : Str) (x : Ctx) : LocalMsgs ((validateUri X u).map (⟨·, x⟩)) := by
  unfold validateUri
  split
  · exact .one rfl
  · split
    · exact .one rfl
    · exact .nil
theorem local_extDoc (X : Ext) (r : ExternalDocumentRef) (p v : Str) : LocalMsgs (validateExternalDocumentRef X r p v) :=
  ((LocalMsgs.msg rfl).app (local_uri _ _ _)).app (local_checksum _ _ _)
theorem local_creationInfo (X : Ext) (ci : CreationInfo) (v : Str) : LocalMsgs (validateCreationInfo X ci v) :=
  ((((LocalMsgs.msg rfl).app (.msg rfl)).app (local_uri _ _ _)).app (.flat fun _ => local_actor _ _)).app
    (.flat fun _ => local_extDoc _ _ _ _)
theorem local_licToken (t : Str) (d : Document) (x : Ctx) : LocalMsgs ((validateLicToken t d).map (⟨·, x⟩)) := by
  intro v hv
  obtain ⟨m, hm, rfl⟩ := List.mem_map.1 hv
  unfold validateLicToken at hm
  split at hm
  · split at hm
    · rcases List.mem_append.1 hm with hm | hm <;> (split at hm <;> simp_all [Msg.isGlobal])
    · simp_all [Msg.isGlobal]
  · split at hm <;> simp_all [Msg.isGlobal]
theorem local_lic (X : Ext) (e : Option (OrSpecial LicExpr)) (d : Document) (p : Str) : LocalMsgs (validateLicExpr X e d p) := by
  unfold validateLicExpr; split
  · refine .app (.flat fun _ => local_licToken _ _ _) ?_
    split
    · exact .one rfl
    · exact .nil
  · exact .nil
theorem local_lics (X : Ext) (e : List (OrSpecial LicExpr)) (d : Document) (p : Str) : LocalMsgs (validateLicExprs X e d p) :=
  .flat fun _ => local_lic _ _ _ _
theorem local_vcode (v : PackageVerificationCode) (p : Str) : LocalMsgs (validateVerificationCode v p) :=
  .app (.flat fun _ => .msg rfl) (.msg rfl)
theorem local_extRef (X : Ext) (r : ExternalPackageRef) (p v : Str) : LocalMsgs (validateExternalPackageRef X r p v) :=
  .ite (.msg rfl) (.ite (.one rfl) (.ite (.one rfl) (.ite (.msg rfl) (.ite (.msg rfl) (.msg rfl)))))
theorem local_package (X : Ext) (p : Package) (v : Str) (x : Ctx) : LocalMsgs (validatePackage X p v x) := by
  unfold validatePackage
  refine .app (.app (.app (.app (.app ?_ ?_) ?_) (.flat fun _ => local_checksum _ _ _)) (.flat fun _ => local_extRef _ _ _ _)) ?_
  · split
    · exact .msg rfl
    · exact .nil
  · split
    · exact .msg rfl
    · exact .nil
  · split
    · exact .ite (.one rfl) (local_vcode _ _)
    · exact .nil
  · exact .ite ((((((LocalMsgs.msg rfl).app (.msg rfl)).app (.msg rfl)).app (.msg rfl)).app (.msg rfl)).app (.msg rfl) |>.app (.msg rfl)) .nil
theorem local_packageDoc (X : Ext) (p : Package) (v : Str) (d : Document) : LocalMsgs (validatePackageInDocument X p v d) :=
  .app (.app (.app (.app (.app .ids (.ite (.msg rfl) .nil)) (local_lic _ _ _ _)) (.ite (.ite (.one rfl) (local_lics _ _ _ _)) .nil))
    (local_lic _ _ _ _)) (local_package _ _ _ _)
theorem local_file (f : File) (v : Str) (x : Ctx) : LocalMsgs (validateFile f v x) :=
  .app (.app (.app (.msg rfl) (.msg rfl)) (.flat fun _ => local_checksum _ _ _))
    (.ite (((LocalMsgs.msg rfl).app (.msg rfl)).app (.msg rfl)) .nil)
theorem local_fileDoc (X : Ext) (f : File) (v : Str) (d : Document) : LocalMsgs (validateFileInDocument X f v d) :=
  .app (.app (.app .ids (local_lic _ _ _ _)) (local_lics _ _ _ _)) (local_file _ _ _)
theorem local_snippet (s : Snippet) (v : Str) (x : Ctx) : LocalMsgs (validateSnippet s v x) := by
  unfold validateSnippet
  refine .app (.app (.app (.msg rfl) (.msg rfl)) ?_) (.ite ((LocalMsgs.msg rfl).app (.msg rfl)) .nil)
  split
  · exact (LocalMsgs.msg rfl).app (.msg rfl)
  · exact .nil
theorem local_snippetDoc (X : Ext) (s : Snippet) (v : Str) (d : Document) : LocalMsgs (validateSnippetInDocument X s v d) :=
  .app (.app (.app (.app .ids .ids) (local_lic _ _ _ _)) (local_lics _ _ _ _)) (local_snippet _ _ _)
theorem local_annotation (a : Annotation) (d : Document) : LocalMsgs (validateAnnotation a d) := (local_actor _ _).app .ids
theorem local_relationship (r : Relationship) (v : Str) (d : Document) : LocalMsgs (validateRelationship r v d) := by
  unfold validateRelationship
  refine .app (.app .ids ?_) (.ite (.msg rfl) .nil)
  split
  · exact .ids
  · exact .nil
theorem local_extracted (X : Ext) (e : ExtractedLicensingInfo) : LocalMsgs (validateExtracted X e) := by
  unfold validateExtracted
  refine .app ?_ (.flat fun _ => .msg rfl)
  split
  · exact .ite ((LocalMsgs.msg rfl).app (.msg rfl)) .nil
  · exact .nil
theorem local_parts (X : Ext) (d : Document) : LocalMsgs (partMsgs X d) :=
  .app (.app (.app (.app (.app (.app (local_creationInfo _ _ _) (.flat fun _ => local_packageDoc _ _ _ _))
    (.flat fun _ => local_fileDoc _ _ _ _)) (.flat fun _ => local_snippetDoc _ _ _ _)) (.flat fun _ => local_annotation _ _))
    (.flat fun _ => local_relationship _ _ _)) (.flat fun _ => local_extracted _ _)

end Spdx
