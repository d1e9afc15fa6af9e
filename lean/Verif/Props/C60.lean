import Verif.Lemmas.PlyRun
/-
C60 — The tag-value parser does what the grammar in the source says: the LALR(1) tables of the grammar rules, as they are written in the
docstrings of `Parser`, have no conflicts, and PLY's driver with these tables and its error recovery, on the tokens of any text, calls the
methods for exactly the attributes that the model acts on.
-/
namespace Spdx.C60
open Spdx Spec Spec.Lalr

/-! ### Specification

`Spec/Lalr`: what LALR(1) tables are. `Model/Ply`: the grammar rules of parser.py, how PLY reads them, and PLY's driver. `Spec/TvReductions`:
the attribute that a call of a method handles. -/

/-- What the driver does with the tokens of a text -/
def Calls (T : PlyTables) (text : Str) (evs : List (Production × List Tok)) : Prop := PlyRuns T { input := lex text } evs

/-- The methods of parser.py and the tags they are for. -/
def handlerTags : List (Str × List Str) :=
  [(s%"p_generic_value", genericTextTags ++ genericSpecialTags ++ genericLicenseTags ++ [s%"PackageSupplier", s%"PackageOriginator"]),
   (s%"p_generic_value_creation_info", genericInfoTags),
   (s%"p_creation_info_value_error", infoTags),
   (s%"p_current_element_error", (tvSyntax.map (·.1)).filter (fun t => t ∉ infoTags) ++ [s%"ExternalRef", s%"Relationship"]),
   (s%"p_license_list_version", [s%"LicenseListVersion"]), (s%"p_external_document_ref", [s%"ExternalDocumentRef"]),
   (s%"p_creator", [s%"Creator"]), (s%"p_created", [s%"Created"]), (s%"p_file_type", [s%"FileType"]),
   (s%"p_file_checksum", [s%"FileChecksum"]), (s%"p_pkg_checksum", [s%"PackageChecksum"]),
   (s%"p_pkg_attribution_text", [s%"PackageAttributionText"]), (s%"p_pkg_verification_code", [s%"PackageVerificationCode"]),
   (s%"p_pkg_files_analyzed", [s%"FilesAnalyzed"]), (s%"p_primary_package_purpose", [s%"PrimaryPackagePurpose"]),
   (s%"p_package_dates", [s%"BuiltDate", s%"ReleaseDate", s%"ValidUntilDate"]),
   (s%"p_snippet_range", [s%"SnippetByteRange", s%"SnippetLineRange"]), (s%"p_annotator", [s%"Annotator"]),
   (s%"p_annotation_date", [s%"AnnotationDate"]), (s%"p_annotation_type", [s%"AnnotationType"]),
   (s%"p_extracted_cross_reference", [s%"LicenseCrossReference"]), (s%"p_file_contributor", [s%"FileContributor"]),
   (s%"p_file_attribution_text", [s%"FileAttributionText"]), (s%"p_snippet_attribution_text", [s%"SnippetAttributionText"]),
   (s%"p_file_license_info", [s%"LicenseInfoInFile"]), (s%"p_pkg_license_info_from_file", [s%"PackageLicenseInfoFromFiles"]),
   (s%"p_snippet_license_info", [s%"LicenseInfoInSnippet"]), (s%"p_spdx_id", [s%"SPDXID"]),
   (s%"p_relationship", [s%"Relationship"]), (s%"p_pkg_external_refs", [s%"ExternalRef"])]

/-! ### Theorems -/

theorem runs_unique {T : PlyTables} {s : PlyState} {a b : List (Production × List Tok)} (ha : PlyRuns T s a) (hb : PlyRuns T s b) :
    a = b := by
  induction ha with
  | done h =>
    cases hb with
    | done h' => rw [h] at h'; cases h'; rfl
    | go h' _ => rw [h] at h'; cases h'
  | go h _ ih =>
    cases hb with
    | done h' => rw [h] at h'; cases h'
    | go h' hr =>
      rw [h] at h'
      cases h'
      exact ih hr

/-- PLY can read the rules, and the LALR(1) construction gives tables for them: there are no conflicts. -/
theorem no_conflicts : ∃ G, grammarOf tvRules = some G ∧ (∀ γ a x y, Acts G γ a x → Acts G γ a y → x = y) ∧ ∃ T, IsLalr G T :=
  ⟨TvGrammar.G, TvGrammar.grammar_eq, fun _ _ _ _ => TvGrammar.acts_unique, TvGrammar.tables_exist⟩

/-- The tables are determined by the grammar. -/
theorem tables_unique {G : Grammar} {T T' : PlyTables} (h : IsLalr G T) (h' : IsLalr G T') : T = T' := by
  have ha : T.action = T'.action := by
    funext γ a
    exact Option.ext fun x => (h.action γ a x).trans (h'.action γ a x).symm
  have hd : T.defaulted = T'.defaulted := by
    funext γ
    refine Option.ext fun p => (h.defaulted γ p).trans ?_
    rw [ha]
    exact (h'.defaulted γ p).symm
  cases T; cases T'
  cases ha; cases hd
  rfl

/-- The driver stops on every text, and the methods it calls are those for the attributes the model finds. -/
theorem parser_is_lalr {G : Grammar} {T : PlyTables} (hG : grammarOf tvRules = some G) (hT : IsLalr G T) (text : Str) :
    ∃ evs, Calls T text evs ∧ (∀ evs', Calls T text evs' → evs' = evs) ∧ evs.filterMap attrOf = attrs (lex text) := by
  have e : TvGrammar.G = G := Option.some.inj (TvGrammar.grammar_eq.symm.trans hG)
  subst e
  obtain ⟨evs, hr, he⟩ := TvGrammar.good_read hT
    (TvGrammar.run_all hT (lex text).length (lex text) (Nat.le_refl _) (TvGrammar.lexed_lex text) [] [] (.inl rfl))
  exact ⟨evs, hr, fun _ h => runs_unique h hr, he⟩

/-- Reading a tag-value text is carrying out the calls of the driver, one after the other. -/
theorem parse_by_calls (L : LicText) {G : Grammar} {T : PlyTables} (hG : grammarOf tvRules = some G) (hT : IsLalr G T) (text : Str)
    {evs : List (Production × List Tok)} (h : Calls T text evs) :
    parseTagValue L text = match TvState.run L {} (evs.filterMap attrOf) with
      | .ok s => s.result
      | .error e => .error e := by
  obtain ⟨evs', _, hu, he⟩ := parser_is_lalr hG hT text
  rw [hu evs h, he]
  rfl

/-- Each symbol of a rule has rules of its own, is the type of a token, or `error`. -/
theorem symbols_defined {G : Grammar} (hG : grammarOf tvRules = some G) : ∀ p ∈ G.rules, ∀ x ∈ p.rhs,
    (∃ q ∈ G.rules, q.lhs = x) ∨ x ∈ reservedTypes.map (·.2) ∨ x = s%"error" ∨
    x ∈ [s%"UNKNOWN_TAG", s%"TEXT", s%"TOOL_VALUE", s%"ORGANIZATION_VALUE", s%"PERSON_VALUE", s%"ISO8601_DATE", s%"CHECKSUM", s%"LINE"] := by
  have e : TvGrammar.G = G := Option.some.inj (TvGrammar.grammar_eq.symm.trans hG)
  subst e
  have h : ∀ p ∈ TvGrammar.rules, ∀ x ∈ p.rhs, x ∈ TvGrammar.nts ∨ x ∈ reservedTypes.map (·.2) ∨ x = s%"error" ∨
      x ∈ [s%"UNKNOWN_TAG", s%"TEXT", s%"TOOL_VALUE", s%"ORGANIZATION_VALUE", s%"PERSON_VALUE", s%"ISO8601_DATE", s%"CHECKSUM", s%"LINE"] := by
    decide +kernel
  intro p hp x hx
  rcases h p hp x hx with h | h
  · exact .inl (TvGrammar.nts_lhs x h)
  · exact .inr h

private def heads (h : Str) : List (Option GSym) := (TvGrammar.rules.filter (fun p => p.handler = h)).map (·.rhs.head?)

private theorem types_nodup : (tvTags.map (fun t => (Tok.tag t).type)).Nodup := by decide +kernel

private theorem tags_known : ∀ e ∈ handlerTags, ∀ t ∈ e.2, t ∈ tvTags := by decide +kernel

private theorem heads_tags : ∀ e ∈ handlerTags, ∀ x ∈ heads e.1, x ∈ e.2.map (fun t => some (Tok.tag t).type) := by decide +kernel

private theorem tags_heads : ∀ e ∈ handlerTags, ∀ x ∈ e.2.map (fun t => some (Tok.tag t).type), x ∈ heads e.1 := by decide +kernel

/-- The methods are for these tags, and no other. -/
theorem handlers {G : Grammar} (hG : grammarOf tvRules = some G) : ∀ e ∈ handlerTags, ∀ t ∈ tvTags,
    t ∈ e.2 ↔ ∃ p ∈ G.rules, p.handler = e.1 ∧ p.rhs.head? = some (Tok.tag t).type := by
  have e : TvGrammar.G = G := Option.some.inj (TvGrammar.grammar_eq.symm.trans hG)
  subst e
  intro e he t ht
  constructor
  · intro h
    obtain ⟨p, hp, hx⟩ := List.mem_map.1 (tags_heads e he _ (List.mem_map.2 ⟨t, h, rfl⟩))
    exact ⟨p, (List.mem_filter.1 hp).1, of_decide_eq_true (List.mem_filter.1 hp).2, hx⟩
  · rintro ⟨p, hp, h, hx⟩
    obtain ⟨u, hu, hy⟩ := List.mem_map.1 (heads_tags e he _ (List.mem_map.2 ⟨p, List.mem_filter.2 ⟨hp, decide_eq_true h⟩, hx⟩))
    have := inj_of_nodup types_nodup (tags_known e he u hu) ht (Option.some.inj hy)
    rw [← this]
    exact hu

/-- An identifier that is followed by a token that starts no attribute is lost, with that token, and without a message: the grammar has no
    rule `SPDX_ID error`. -/
theorem id_lost {s : Str} {v : Tok} {r : List Tok} (hv : v.starts = false) : attrs (.tag s%"SPDXID" :: .line s :: v :: r) = attrs r := by
  have e : attrOne (.tag s%"SPDXID" :: .line s :: v :: r) = if v.starts then some (some (.spdxId s), v :: r) else some (none, r) := rfl
  rw [hv] at e
  exact attrs_step e

/-- Any other value is then reported. -/
theorem value_void {t : Str} {x : TvSyntax} {w v : Tok} {r : List Tok} (hx : tvSyntax.lookup t = some x) (hv : v.starts = false) :
    attrs (.tag t :: w :: v :: r) = .bad t :: (if x.accepts w then attrs r else attrs (w :: v :: r)) := by
  rw [TvGrammar.attrs_syntax hx]
  cases x.accepts w with
  | false => rfl
  | true =>
    have : follows (v :: r) = false := hv
    rw [if_pos rfl, this, if_pos rfl, TvGrammar.attrs_drop hv]
    rfl

/-! ### Non-vacuity -/

example : lex s%"SPDXID: SPDXRef-A\n:b" = [.tag s%"SPDXID", .line s%"SPDXRef-A", .line s%"b"] ∧ (Tok.line s%"b").starts = false := by
  decide +kernel
example : attrs (lex s%"PackageName: a\n:b\nSPDXID: c") = [.bad s%"PackageName", .spdxId s%"c"] := by decide +kernel


/-- There are such tables, the driver has a run on a text with mistakes, and this is what it makes of it. -/
example : ∃ G T evs, grammarOf tvRules = some G ∧ IsLalr G T ∧
    Calls T s%"PackageName: a\nNONE x\nSPDXID: b\nFileName: Tool: c\nWhat: 1\nRelationship: d\nRelationshipComment: e" evs ∧
    evs.filterMap attrOf = [.bad s%"PackageName", .unknown, .spdxId s%"b", .bad s%"FileName", .unknown,
      .commented s%"Relationship" s%"d" (some (.line s%"e"))] := by
  obtain ⟨G, hG, _, T, hT⟩ := no_conflicts
  obtain ⟨evs, hc, _, he⟩ := parser_is_lalr hG hT
    s%"PackageName: a\nNONE x\nSPDXID: b\nFileName: Tool: c\nWhat: 1\nRelationship: d\nRelationshipComment: e"
  exact ⟨G, T, evs, hG, hT, hc, by rw [he]; decide +kernel⟩

end Spdx.C60
