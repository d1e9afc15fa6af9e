import Verif.Lemmas.TagValueInfo
import Verif.Spec.Example
/-
C28: multi-line text, ranges, checksums, relationships, external references and annotator lines written in tag-value are
read back to the same value, on the stated domains.
-/
namespace Spdx.C28
open Spdx Spec

/-! ### Specification -/

/-- Reading what was written: the grammar's attributes in the text. -/
def read (w : TvSteps) : List TvAttr := attrs (lex w.text)

/-- The tags whose value is a text of one or more lines. -/
def TextTag (tag : Str) : Prop := tvSyntax.lookup tag = some .textOrLine
instance (tag : Str) : Decidable (TextTag tag) := inferInstanceAs (Decidable (_ = _))

/-- Writing the text after the tag and reading it gives the text, and nothing else. -/
def TextSurvives (tag v : Str) : Prop := ∃ t, read (writeText tag v) = [.value tag t] ∧ textOrLineValue t = v

/-- The same for a text on one line: the reader finds a LINE token. -/
def LineSurvives (tag v : Str) : Prop := read (writeValue tag v) = [.value tag (.line v)]

/-! ### Helpers -/

private theorem read_gives {w : TvSteps} {as : List TvAttr} (h : Gives w as) : read w = as := by
  obtain ⟨ts, ht, hg⟩ := h
  have := (hg [] (fun _ _ e => by cases e)).2
  rw [List.append_nil] at this
  unfold read
  rw [lex_text ht, this]
  exact List.append_nil _

private theorem line_survives {tag v : Str} (hx : tvSyntax.lookup tag = some .line) (hv : Plain v) : LineSurvives tag v :=
  read_gives (.value hx (lexes_plain hv) rfl)

/-- The first occurrence is not after the given one. -/
private theorem cutFirst_le (p a r : Str) (hp : p ≠ []) : ∃ x y, cutFirst p (a ++ (p ++ r)) = some (x, y) ∧ x.length ≤ a.length := by
  induction a with
  | nil =>
    cases p with
    | nil => exact absurd rfl hp
    | cons c q =>
      refine ⟨[], (c :: q ++ r).drop (c :: q).length, ?_, Nat.le_refl _⟩
      rw [List.nil_append, List.cons_append, cutFirst]
      exact if_pos (List.isPrefixOf_iff_prefix.2 ⟨r, rfl⟩)
  | cons c a ih =>
    obtain ⟨x, y, h1, h2⟩ := ih
    rw [List.cons_append, cutFirst]
    split
    · exact ⟨[], _, rfl, Nat.zero_le _⟩
    · rw [h1]
      exact ⟨c :: x, y, rfl, by simpa using h2⟩

/-! ### Texts -/

/-- A text that can be expressed comes back. -/
theorem text_survives {tag v : Str} (ht : TextTag tag) (hv : FreeText v) : TextSurvives tag v :=
  ⟨textTok v, read_gives (.text ht hv), (textTok_value hv).2⟩

/-- A text of several lines comes back exactly if the closing marker does not occur in it. -/
theorem multiline_survives_iff {tag v : Str} (ht : TextTag tag) (hn : '\n' ∈ v) : TextSurvives tag v ↔ ¬ s%"</text>" <:+: v := by
  constructor
  · rintro ⟨t, hr, hv⟩ ⟨a, b, hab⟩
    obtain ⟨x, y, hc, hl⟩ := cutFirst_le s%"</text>" a (b ++ s%"</text>\n") (by decide)
    have htag : tag ∈ tvTags := (tvSyntax_tags tag (List.mem_map.2 ⟨_, lookup_mem ht, rfl⟩)).1
    have hne : tag ≠ s%"SPDXID" := (tvSyntax_tags tag (List.mem_map.2 ⟨_, lookup_mem ht, rfl⟩)).2
    have hw : (writeText tag v).text = tag ++ ':' :: (s%" <text>" ++ (a ++ (s%"</text>" ++ (b ++ s%"</text>\n")))) := by
      unfold writeText
      have : hasChar '\n' v = true := by unfold hasChar; simpa using hn
      rw [this, if_pos rfl, text_cons]
      rw [← hab]
      simp [TvLine.render, TvSteps.text, TvSteps.written]
    have hx : lexValue (s%" <text>" ++ (a ++ (s%"</text>" ++ (b ++ s%"</text>\n")))) =
        (some (.text (s%"<text>" ++ x ++ s%"</text>")), y.dropWhile isPySpace) := by
      unfold lexValue
      have e1 : ∀ z : Str, (s%" <text>" ++ z).dropWhile isPySpace = s%"<text>" ++ z := fun z => rfl
      simp only [e1]
      have e2 : ∀ z : Str, dropPrefix? s%"<text>" (s%"<text>" ++ z) = some z := by
        intro z
        unfold dropPrefix?
        rw [if_pos (List.isPrefixOf_iff_prefix.2 ⟨_, rfl⟩), List.drop_left]
      rw [e2]
      simp only
      rw [hc]
    have hlex : ∃ ts, lex (writeText tag v).text = .tag tag :: .text (s%"<text>" ++ x ++ s%"</text>") :: ts := by
      rw [hw, lex_tag htag, hx]
      exact ⟨_, rfl⟩
    obtain ⟨ts, hts⟩ := hlex
    unfold read at hr
    rw [hts] at hr
    have hone : attrOne (.tag tag :: .text (s%"<text>" ++ x ++ s%"</text>") :: ts) =
        if follows ts then some (some (.value tag (.text (s%"<text>" ++ x ++ s%"</text>"))), ts) else some (some (.bad tag), ts) := by
      unfold attrOne
      simp only
      rw [if_neg hne, show tvSyntax.lookup tag = some .textOrLine from ht]
      rfl
    by_cases hf : follows ts = true
    case neg =>
      rw [if_neg hf] at hone
      rw [attrs_step hone] at hr
      exact nomatch (List.cons.inj hr).1
    rw [if_pos hf] at hone
    rw [attrs_step hone] at hr
    simp only [Option.toList_some, List.cons_append, List.nil_append, List.cons.injEq, TvAttr.value.injEq, true_and] at hr
    rw [← hr.1] at hv
    have hlen : x.length < v.length := by
      rw [← hab]
      simp only [List.length_append]
      have : (s%"</text>").length = 7 := rfl
      omega
    by_cases hx0 : x = []
    · subst hx0
      have : textOrLineValue (.text (s%"<text>" ++ [] ++ s%"</text>")) = s%"<text></text>" := by decide +kernel
      replace hv := this.symm.trans hv
      rw [← hv] at hn
      revert hn; decide
    · have : textOrLineValue (.text (s%"<text>" ++ x ++ s%"</text>")) = x := strFromText_wrapped hx0
      replace hv := this.symm.trans hv
      rw [hv] at hlen
      exact Nat.lt_irrefl _ hlen
  · intro h
    refine text_survives ht ?_
    unfold FreeText
    rw [if_pos hn]; exact h

/-! ### Ranges -/

/-- A range comes back exactly if its numbers are not negative. -/
theorem range_survives_iff (tag : Str) (ht : tag = s%"SnippetByteRange" ∨ tag = s%"SnippetLineRange") (a b : Int) :
    (∃ t, read (writeRange tag (some (a, b))) = [.value tag t] ∧ parseTvRange t.value = some (a, b)) ↔ 0 ≤ a ∧ 0 ≤ b := by
  have hx : tvSyntax.lookup tag = some .line := by rcases ht with rfl | rfl <;> rfl
  constructor
  · rintro ⟨t, _, hp⟩
    unfold parseTvRange at hp
    split at hp
    · split at hp
      · simp only [Option.bind_eq_bind, Option.bind_eq_some_iff, Option.some.injEq, Prod.mk.injEq] at hp
        obtain ⟨x, _, y, _, h1, h2⟩ := hp
        omega
      · cases hp
    · cases hp
  · rintro ⟨h1, h2⟩
    obtain ⟨x, rfl⟩ := Int.eq_ofNat_of_zero_le h1
    obtain ⟨y, rfl⟩ := Int.eq_ofNat_of_zero_le h2
    obtain ⟨h1, h2⟩ := range_line x y
    refine ⟨.line (natStr x ++ s%":" ++ natStr y), ?_, h2⟩
    have : writeRange tag (some ((x : Int), (y : Int))) = writeValue tag (natStr x ++ s%":" ++ natStr y) := by
      unfold writeRange
      simp [intStr]
    rw [this]
    exact line_survives hx h1

/-! ### Checksums -/

theorem checksum_survives (tag : Str) (ht : tag = s%"FileChecksum" ∨ tag = s%"PackageChecksum") (c : Checksum) (h : ChecksumTv c) :
    ∃ s, read (writeChecksum tag c) = [.value tag (.checksum s)] ∧ checksumFromTv s = some c := by
  obtain ⟨s, h1, h2, h3⟩ := checksum_line c h
  refine ⟨s, ?_, h3⟩
  unfold writeChecksum
  rw [h1]
  exact read_gives (.value (by rcases ht with rfl | rfl <;> rfl) h2 rfl)

/-! ### Relationships -/

/-- The relationship built from the attribute. -/
def relationshipOf (a : TvAttr) : Option (Check Relationship) :=
  match a with
  | .commented tag line comment =>
    if tag = s%"Relationship" then some (mkRelationship ((({} : TvState).setRelationship line (comment.map textOrLineValue)).elem)) else none
  | _ => none

theorem relationship_survives (r : Relationship) (h : RelTv r) :
    ∃ a, read (writeRelationship r) = [a] ∧ relationshipOf a = some (.ok r) := by
  obtain ⟨h1, h2⟩ := relationshipLine_split h
  refine ⟨_, read_gives (.relationship h1 r.comment h.comment), ?_⟩
  have hct : (r.comment.map textTok).map textOrLineValue = r.comment := by
    cases hr : r.comment with
    | none => rfl
    | some c => exact congrArg some (textTok_value (h.comment c hr)).2
  show some (mkRelationship ((({} : TvState).setRelationship (relationshipLine r) ((r.comment.map textTok).map textOrLineValue)).elem)) = _
  rw [hct]
  have : (({} : TvState).setRelationship (relationshipLine r) r.comment).elem = fieldsOf (relationshipFields r) := by
    unfold TvState.setRelationship
    rw [h2]
    simp only [(relType_name r.relationshipType).2, (relatedItem_written h.related).2]
    unfold relationshipFields
    cases r.comment <;> rfl
  rw [this, mkRelationship_fields]

/-! ### External references -/

def extRefOf (a : TvAttr) : Option (Except PMsg ExternalPackageRef) :=
  match a with
  | .commented tag line comment => if tag = s%"ExternalRef" then some (parseTvExtRef line (comment.map textOrLineValue)) else none
  | _ => none

theorem externalRef_survives (r : ExternalPackageRef) (h : ExtRefTv r) : ∃ a, read (writeExternalRef r) = [a] ∧ extRefOf a = some (.ok r) := by
  have hw : writeExternalRef r = writeValue s%"ExternalRef" (joinWith s%" " [enumNameToTv r.category.name, r.referenceType, r.locator]) ++
      writeText? s%"ExternalRefComment" r.comment := by
    unfold writeExternalRef
    cases hr : r.comment with
    | none => rfl
    | some c =>
      show _ ++ (if c = [] then [] else writeText s%"ExternalRefComment" c) = _
      rw [if_neg (freeText_ne_nil (h.comment c hr))]
      simp [writeText?]
  rw [hw]
  have hp : Plain (joinWith s%" " [enumNameToTv r.category.name, r.referenceType, r.locator]) :=
    plain_of_space h.line ' ' (by simp [joinWith]) (by decide)
  refine ⟨_, read_gives (.externalRef hp r.comment h.comment), ?_⟩
  have hct : (r.comment.map textTok).map textOrLineValue = r.comment := by
    cases hr : r.comment with
    | none => rfl
    | some c => exact congrArg some (textTok_value (h.comment c hr)).2
  show some (parseTvExtRef _ ((r.comment.map textTok).map textOrLineValue)) = _
  rw [hct, parseTvExtRef_written r h.type h.locator]

/-! ### Actors, dates, versions, other references -/

theorem actor_survives (tag : Str) (ht : tag = s%"Annotator" ∨ tag = s%"Creator") (a : Actor) (h : C05.Expressible a) :
    ∃ t, read (writeValue tag a.toSerialized) = [.value tag t] ∧ parseActor t.value = .ok a := by
  obtain ⟨g1, g2, g3, _, _⟩ := actor_accepts a h
  exact ⟨actorTok a, read_gives (.value (by rcases ht with rfl | rfl <;> rfl) g1 g3), g2⟩

theorem supplier_survives (tag : Str) (ht : tag = s%"PackageSupplier" ∨ tag = s%"PackageOriginator") (a : Actor) (h : C05.Expressible a)
    (hn : a.actorType ≠ .TOOL) : ∃ t, read (writeValue tag a.toSerialized) = [.value tag t] ∧ t ≠ .noAssertion ∧ parseActor t.value = .ok a := by
  obtain ⟨g1, g2, _, g4, g5⟩ := actor_accepts a h
  exact ⟨actorTok a, read_gives (.value (by rcases ht with rfl | rfl <;> rfl) g1 (g4 hn)), g5, g2⟩

theorem date_survives (tag : Str) (ht : tvSyntax.lookup tag = some .date) (t : DateTime) (h : DateOk t) :
    ∃ s, read (writeDate tag t) = [.value tag (.date s)] ∧ datetimeFromStr s = some t := by
  obtain ⟨x, h1, h2, h3⟩ := lexes_date t h
  refine ⟨x, ?_, h3⟩
  unfold writeDate
  rw [h1]
  exact read_gives (.value ht h2 rfl)

theorem docRef_survives (r : ExternalDocumentRef) (h : DocRefTv r) :
    LineSurvives s%"ExternalDocumentRef" (externalDocumentRefToTv r) ∧ parseDocRef (externalDocumentRefToTv r) = .ok r :=
  ⟨line_survives rfl (parseDocRef_written h).1, (parseDocRef_written h).2⟩

theorem code_survives (c : PackageVerificationCode) (h : CodeTv c) :
    LineSurvives s%"PackageVerificationCode" (verificationCodeToTv c) ∧ parseTvCode (verificationCodeToTv c) = some c :=
  ⟨line_survives rfl (code_line h).1, (code_line h).2⟩

theorem version_survives (v : Version) : LineSurvives s%"LicenseListVersion" v.toStr ∧ versionFromString v.toStr = some v :=
  ⟨line_survives rfl (version_line v), C04.roundtrip v⟩

/-! ### What does not survive -/

/-- The names of excluded files are joined by spaces and split at commas. -/
theorem excluded_files_merged :
    parseTvCode (verificationCodeToTv ⟨s%"85ed0817af83a24ad8da68c2b5094de69833983c", [s%"./a", s%"./b"]⟩) =
      some ⟨s%"85ed0817af83a24ad8da68c2b5094de69833983c", [s%"./a ./b"]⟩ := by decide +kernel

/-- The checksum of another document is only read if it is a SHA1. -/
theorem docRef_needs_sha1 :
    (parseDocRef (externalDocumentRefToTv ⟨s%"DocumentRef-a", s%"https://e.org/a", ⟨.MD5, s%"d41d8cd98f00b204e9800998ecf8427e"⟩⟩)).isOk = false := by
  decide +kernel

/-- A tool as the supplier of a package is written, but not read. -/
theorem tool_supplier_rejected :
    read (writeValue s%"PackageSupplier" (Actor.toSerialized ⟨.TOOL, s%"scan", none⟩)) = [.bad s%"PackageSupplier"] := by decide +kernel

/-- A negative number in a range is written as it is, and the reader reports it. -/
theorem negative_range_rejected : parseTvRange (intStr (-1) ++ s%":" ++ intStr 3) = none := by decide +kernel

/-- A one-line text that looks like something else. -/
theorem person_text_rejected : read (writeText s%"PackageComment" s%"Person: see below") = [.bad s%"PackageComment"] := by decide +kernel

/-- A one-line text that starts like a checksum leaves a remainder that is taken for an unknown tag. -/
theorem checksum_text_rejected : read (writeText s%"PackageComment" s%"SHA1: see below") = [.bad s%"PackageComment", .unknown, .unknown] := by
  decide +kernel

/-- White space around a one-line text is lost. -/
theorem space_lost : read (writeText s%"PackageComment" s%" x ") = [.value s%"PackageComment" (.line s%"x")] := by decide +kernel

/-- A license name NONE is not read. -/
theorem license_name_none_rejected : read (writeValue s%"LicenseName" s%"NONE") = [.bad s%"LicenseName"] := by decide +kernel

/-- A one-line text with an opening marker swallows what follows it. -/
theorem open_marker_swallows :
    read (writeText s%"PackageComment" s%"<text>x" ++ writeText s%"PackageSummary" s%"y") = [] := by decide +kernel

/-! ### The hypotheses are met -/

example : TextTag s%"PackageComment" ∧ FreeText s%"two\n  lines, <text> and all\n" ∧ FreeText s%"one: line" := by decide +kernel
example : ChecksumTv Example.sha := ⟨by decide +kernel, by decide +kernel⟩
example : RelTv ⟨s%"SPDXRef-a", .DEPENDS_ON, .noAssertion, some s%"a\ncomment"⟩ :=
  ⟨by decide +kernel, by decide, by intro s h; (cases h), by intro c h; cases h; decide +kernel⟩
example : ExtRefTv ⟨.PACKAGE_MANAGER, s%"purl", s%"pkg:a/b@1", none⟩ := ⟨by decide +kernel, by decide +kernel, by decide +kernel, by intro c h; cases h⟩
example : C05.Expressible ⟨.PERSON, s%"Ann", some s%"a@e.org"⟩ := C05.roundtrip_only _ (by decide +kernel)
example : DocRefTv ⟨s%"DocumentRef-ext", s%"https://e.org/x", Example.sha⟩ :=
  ⟨rfl, by decide +kernel, by decide +kernel, by decide +kernel, by decide +kernel, by decide +kernel⟩
example : CodeTv ⟨s%"85ed0817af83a24ad8da68c2b5094de69833983c", [s%"./x.spdx"]⟩ :=
  ⟨by decide +kernel, by decide +kernel, .inr ⟨s%"./x.spdx", rfl, by decide, by decide, by decide, by intro x r h; cases h; decide⟩⟩
example : DateOk ⟨2022, 1, 1, 0, 0, 0, 0, none⟩ := by unfold DateOk; decide +kernel

end Spdx.C28
