import Verif.Lemmas.TagValueSound
import Verif.Props.C66
import Verif.Spec.Reported
/-
C68: which tag-value texts raise something else than `SPDXParsingError`, and which raise it at once.

The only other exception is the `KeyError` for a malformed `Relationship`.  A malformed creator, supplier or originator ends the reading
with a `SPDXParsingError` that has no other message.  In all other cases the whole text is read.  In particular a checksum never raises
anything, as a comment in the source claims.
-/
namespace Spdx.C68
open Spdx Spec

/-- A creator, supplier or originator that is no actor -/
inductive BadActor : TvAttr → ActorError → Prop where
  | creator {v e} : parseActor v.value = .error e → BadActor (.value s%"Creator" v) e
  | supplier {v e} : v ≠ .noAssertion → parseActor v.value = .error e → BadActor (.value s%"PackageSupplier" v) e
  | originator {v e} : v ≠ .noAssertion → parseActor v.value = .error e → BadActor (.value s%"PackageOriginator" v) e

/-- A `Relationship` whose value is not a line, or whose comment is not a text. -/
def badRelationship : TvAttr := .bad s%"Relationship"

/-- The attribute, if it is read, ends the reading. -/
def Stops (a : TvAttr) : Prop := a = badRelationship ∨ ∃ e, BadActor a e

/-! ## Proofs -/

private theorem attr_ok (L : LicText) (s : TvState) {tag : Str} {v : Tok} (h : Sound Good (.value tag v)) (hn : ∀ e, ¬ BadActor (.value tag v) e) :
    ∃ s', s.attr L tag v = .ok s' := by
  have hcov := covered (tag, _) (lookup_mem h.choose_spec.1)
  have hsum := fun ht => checksum_value h ht
  unfold TvState.attr
  by_cases h1 : tag ∈ genericTextTags
  · rw [if_pos h1]; exact generic_ok _ (classes _ (by simp [h1])) _
  rw [if_neg h1]
  by_cases h2 : tag ∈ genericSpecialTags
  · rw [if_pos h2]; exact generic_ok _ (classes _ (by simp [h2])) _
  rw [if_neg h2]
  by_cases h3 : tag ∈ genericLicenseTags
  · rw [if_pos h3]; exact generic_ok _ (classes _ (by simp [h3])) _
  rw [if_neg h3]
  by_cases h4 : tag = s%"PackageSupplier" ∨ tag = s%"PackageOriginator"
  · rw [if_pos h4]
    have hc : (tagClass tag).isSome = true := classes _ (by rcases h4 with rfl | rfl <;> decide +kernel)
    split
    · exact generic_ok _ hc _
    · rename_i hv
      cases ha : parseActor v.value with
      | ok a => exact generic_ok _ hc _
      | error e =>
        refine absurd ?_ (hn e)
        rcases h4 with rfl | rfl
        · exact .supplier hv ha
        · exact .originator hv ha
  rw [if_neg h4]
  by_cases h5 : tag ∈ genericInfoTags
  · rw [if_pos h5]; exact ⟨_, rfl⟩
  rw [if_neg h5]
  by_cases h6 : tag = s%"LicenseListVersion"
  · rw [if_pos h6]; exact ⟨_, rfl⟩
  rw [if_neg h6]
  by_cases h7 : tag = s%"ExternalDocumentRef"
  · rw [if_pos h7]; exact ⟨_, rfl⟩
  rw [if_neg h7]
  by_cases h8 : tag = s%"Creator"
  · rw [if_pos h8]
    cases ha : parseActor v.value with
    | ok a => exact ⟨_, rfl⟩
    | error e =>
      subst h8
      exact absurd (.creator ha) (hn e)
  rw [if_neg h8]
  by_cases h9 : tag = s%"Created"
  · rw [if_pos h9]; exact ⟨_, rfl⟩
  rw [if_neg h9]
  by_cases h10 : tag = s%"FileType"
  · rw [if_pos h10]; exact ⟨_, rfl⟩
  rw [if_neg h10]
  by_cases h11 : tag = s%"FileChecksum"
  · rw [if_pos h11]; exact checksum_ok _ _ (hsum (by simp [h11]))
  rw [if_neg h11]
  by_cases h12 : tag = s%"PackageChecksum"
  · rw [if_pos h12]; exact checksum_ok _ _ (hsum (by simp [h12]))
  rw [if_neg h12]
  by_cases h13 : tag = s%"PackageAttributionText"
  · rw [if_pos h13]; exact ⟨_, rfl⟩
  rw [if_neg h13]
  by_cases h14 : tag = s%"PackageVerificationCode"
  · rw [if_pos h14]; exact ⟨_, rfl⟩
  rw [if_neg h14]
  by_cases h15 : tag = s%"FilesAnalyzed"
  · rw [if_pos h15]; exact ⟨_, rfl⟩
  rw [if_neg h15]
  by_cases h16 : tag = s%"PrimaryPackagePurpose"
  · rw [if_pos h16]; exact ⟨_, rfl⟩
  rw [if_neg h16]
  by_cases h17 : tag = s%"BuiltDate" ∨ tag = s%"ReleaseDate" ∨ tag = s%"ValidUntilDate"
  · rw [if_pos h17]; exact ⟨_, rfl⟩
  rw [if_neg h17]
  by_cases h18 : tag = s%"SnippetByteRange" ∨ tag = s%"SnippetLineRange"
  · rw [if_pos h18]; exact ⟨_, rfl⟩
  rw [if_neg h18]
  by_cases h19 : tag = s%"Annotator"
  · rw [if_pos h19]; exact ⟨_, rfl⟩
  rw [if_neg h19]
  by_cases h20 : tag = s%"AnnotationDate"
  · rw [if_pos h20]; exact ⟨_, rfl⟩
  rw [if_neg h20]
  by_cases h21 : tag = s%"AnnotationType"
  · rw [if_pos h21]; exact ⟨_, rfl⟩
  rw [if_neg h21]
  cases h22 : textListTags.lookup tag with
  | some p => exact ⟨_, rfl⟩
  | none =>
    cases h23 : licenseListTags.lookup tag with
    | some p => exact ⟨_, rfl⟩
    | none =>
      exfalso
      have h17' := not_or.1 h17
      have h17'' := not_or.1 h17'.2
      rcases hcov with q | q | q | q | q | q | q | q | q | q
      · exact h1 q
      · exact h2 q
      · exact h3 q
      · simp only [List.mem_cons, List.not_mem_nil, or_false] at q
        exact h4 q
      · exact h5 q
      · simp only [List.mem_cons, List.not_mem_nil, or_false] at q
        exact q.elim h11 h12
      · exact h8 q
      · simp only [List.mem_cons, List.not_mem_nil, or_false] at q
        rcases q with q | q | q | q | q | q | q | q | q | q | q | q | q | q | q | q
        · exact h6 q
        · exact h7 q
        · exact h9 q
        · exact h10 q
        · exact h13 q
        · exact h14 q
        · exact h15 q
        · exact h16 q
        · exact h17'.1 q
        · exact h17''.1 q
        · exact h17''.2 q
        · exact h18 (.inl q)
        · exact h18 (.inr q)
        · exact h19 q
        · exact h20 q
        · exact h21 q
      · rw [h22] at q; cases q
      · rw [h23] at q; cases q

private theorem attr_raises (L : LicText) (s : TvState) {a : TvAttr} {e : ActorError} (h : BadActor a e) : s.step L a = .error (.parsing [actorMsg e]) := by
  cases h with
  | creator h =>
    rename_i v
    change (match parseActor v.value with
      | .ok a => Except.ok (s.appendInfo s%"creators" (.actor a))
      | .error e => Except.error (PyErr.parsing [actorMsg e])) = _
    rw [h]
  | supplier hv h =>
    rename_i v
    change s.attr L s%"PackageSupplier" v = _
    rw [attr_of_supplier (by decide)]
    split
    · exact absurd rfl hv
    · rw [h]
  | originator hv h =>
    rename_i v
    change s.attr L s%"PackageOriginator" v = _
    rw [attr_of_supplier (by decide)]
    split
    · exact absurd rfl hv
    · rw [h]

private theorem startTags {t : Str} (h : (startTag t).isSome = true) (hr : t ≠ s%"Relationship") : (tagClass t).isSome = true := by
  unfold startTag at h
  split at h
  case h_3 => exact absurd rfl hr
  case h_7 => cases h
  all_goals decide +kernel

private theorem bad_ok (s : TvState) {t : Str} (hr : t ≠ s%"Relationship") : ∃ s', s.badAttr t = .ok s' := by
  unfold TvState.badAttr
  by_cases h1 : t ∈ infoTags
  · rw [if_pos h1]; exact ⟨_, rfl⟩
  rw [if_neg h1]
  by_cases h2 : (startTag t).isSome = true
  · rw [if_pos h2]
    have hc := startTags h2 hr
    cases hk : tagClass t with
    | none => rw [hk] at hc; cases hc
    | some c => exact ⟨_, rfl⟩
  · rw [if_neg h2]; exact ⟨_, rfl⟩

private theorem step_ok (L : LicText) (s : TvState) {a : TvAttr} (h : Sound Good a) (hs : ¬ Stops a) : ∃ s', s.step L a = .ok s' := by
  cases a with
  | value t v => exact attr_ok L s h fun e he => hs (.inr ⟨e, he⟩)
  | bad t => exact bad_ok s fun e => hs (.inl (e ▸ rfl))
  | spdxId v => exact ⟨_, rfl⟩
  | unknown => exact ⟨_, rfl⟩
  | commented t l c =>
    change ∃ s', (if t = s%"Relationship" then _ else _) = Except.ok s'
    by_cases ht : t = s%"Relationship"
    · rw [if_pos ht]; exact ⟨_, rfl⟩
    · rw [if_neg ht]; exact ⟨_, rfl⟩

private theorem step_bad (L : LicText) (s : TvState) : s.step L badRelationship = .error (.other s%"KeyError") := rfl

private theorem run_ok (L : LicText) (as : List TvAttr) : ∀ (s : TvState), (∀ a ∈ as, Sound Good a) → (∀ a ∈ as, ¬ Stops a) → ∃ s', s.run L as = .ok s' := by
  induction as with
  | nil => intro s _ _; exact ⟨s, rfl⟩
  | cons a as ih =>
    intro s h1 h2
    obtain ⟨s1, e⟩ := step_ok L s (h1 a List.mem_cons_self) (h2 a List.mem_cons_self)
    unfold TvState.run
    rw [e]
    exact ih s1 (fun a ha => h1 a (List.mem_cons_of_mem _ ha)) fun a ha => h2 a (List.mem_cons_of_mem _ ha)

private theorem run_append (L : LicText) (as bs : List TvAttr) : ∀ (s s' : TvState), s.run L as = .ok s' → s.run L (as ++ bs) = s'.run L bs := by
  induction as with
  | nil => intro s s' h; cases h; rfl
  | cons a as ih =>
    intro s s' h
    unfold TvState.run at h
    split at h
    · rename_i s1 e
      change (match s.step L a with | .ok s' => s'.run L (as ++ bs) | .error e => .error e) = _
      rw [e]
      exact ih s1 s' h
    · cases h

private theorem run_stop (L : LicText) (s : TvState) {pre post : List TvAttr} {a : TvAttr} {e : PyErr} (h1 : ∀ a ∈ pre, Sound Good a)
    (h2 : ∀ a ∈ pre, ¬ Stops a) (h : ∀ s : TvState, s.step L a = .error e) : s.run L (pre ++ a :: post) = .error e := by
  obtain ⟨s', hs⟩ := run_ok L pre s h1 h2
  rw [run_append L pre _ s s' hs]
  unfold TvState.run
  rw [h s']

/-- The first attribute that stops -/
private theorem first_stop (as : List TvAttr) : (∀ a ∈ as, ¬ Stops a) ∨ ∃ pre a post, as = pre ++ a :: post ∧ (∀ a ∈ pre, ¬ Stops a) ∧ Stops a := by
  induction as with
  | nil => exact .inl fun a h => nomatch h
  | cons a as ih =>
    by_cases ha : Stops a
    · exact .inr ⟨[], a, as, rfl, (fun a h => nomatch h), ha⟩
    · rcases ih with h | ⟨pre, b, post, rfl, h1, h2⟩
      · refine .inl fun b hb => ?_
        rcases List.mem_cons.1 hb with rfl | hb
        · exact ha
        · exact h b hb
      · refine .inr ⟨a :: pre, b, post, rfl, fun b hb => ?_, h2⟩
        rcases List.mem_cons.1 hb with rfl | hb
        · exact ha
        · exact h1 b hb

private theorem result_caught (s : TvState) : ¬ C66.Uncaught s.result := by
  rintro ⟨e, h, hn⟩
  unfold TvState.result at h
  dsimp only at h
  generalize s.finish.log ++ (if s.finish.infoLog = [] then [] else [.wrapped s%"CreationInfo" s.finish.infoLog]) = log at h
  split at h
  · cases h; exact hn _ rfl
  · split at h
    · cases h
    · rename_i he
      cases h
      unfold construct at he
      split at he
      · cases he
      · cases he; exact hn _ rfl

private theorem parse_ok (L : LicText) {text : Str} (h : ∀ a ∈ attrs (lex text), ¬ Stops a) : ¬ C66.Uncaught (parseTagValue L text) := by
  obtain ⟨s, hs⟩ := run_ok L _ {} (attrs_sound (lex_good text)) h
  unfold parseTagValue
  rw [hs]
  exact result_caught s

private theorem parse_stop (L : LicText) {text : Str} {pre post : List TvAttr} {a : TvAttr} {e : PyErr} (ht : attrs (lex text) = pre ++ a :: post)
    (h2 : ∀ a ∈ pre, ¬ Stops a) (h : ∀ s : TvState, s.step L a = .error e) : parseTagValue L text = .error e := by
  unfold parseTagValue
  have hs := attrs_sound (lex_good text)
  rw [ht] at hs ⊢
  rw [run_stop L {} (fun a ha => hs a (List.mem_append_left _ ha)) h2 h]

/-! ## Theorems -/

/-- A comment in the source says that the lexer lets only such values through to a checksum that they raise nothing: it is right. -/
theorem checksums_read (text : Str) (tag : Str) (v : Tok) (ht : tag ∈ [s%"FileChecksum", s%"PackageChecksum"])
    (h : .value tag v ∈ attrs (lex text)) : ∃ c, checksumFromTv v.value = some c :=
  Option.isSome_iff_exists.1 (checksum_value (attrs_sound (lex_good text) _ h) ht)

/-- A text raises something else than `SPDXParsingError` exactly if it has a malformed `Relationship` with no malformed creator, supplier
    or originator before it. -/
theorem uncaught_iff (L : LicText) (text : Str) : C66.Uncaught (parseTagValue L text) ↔
    ∃ pre post, attrs (lex text) = pre ++ badRelationship :: post ∧ ∀ a ∈ pre, ∀ e, ¬ BadActor a e := by
  constructor
  · intro h
    rcases first_stop (attrs (lex text)) with hn | ⟨pre, a, post, e, hn, ha | ⟨x, ha⟩⟩
    · exact absurd h (parse_ok L hn)
    · subst ha
      exact ⟨pre, post, e, fun a ha x hx => hn a ha (.inr ⟨x, hx⟩)⟩
    · rw [parse_stop L e hn fun s => attr_raises L s ha] at h
      obtain ⟨y, hy, hp⟩ := h
      cases hy
      exact absurd rfl (hp _)
  · rintro ⟨pre, post, e, hn⟩
    rcases first_stop pre with hp | ⟨pre', a, post', rfl, hp, ha | ⟨x, ha⟩⟩
    · exact ⟨_, parse_stop L e hp (step_bad L), fun _ h => by cases h⟩
    · subst ha
      rw [List.append_assoc] at e
      exact ⟨_, parse_stop L e hp (step_bad L), fun _ h => by cases h⟩
    · exact absurd ha (hn a (by simp) x)

/-- A malformed creator, supplier or originator ends the reading: nothing else is reported, neither what came before nor what comes after. -/
theorem bad_actor (L : LicText) (text : Str) (pre post : List TvAttr) (a : TvAttr) (e : ActorError) (h : attrs (lex text) = pre ++ a :: post)
    (hn : ∀ a ∈ pre, ¬ Stops a) (ha : BadActor a e) : parseTagValue L text = .error (.parsing [actorMsg e]) :=
  parse_stop L h hn fun s => attr_raises L s ha

private theorem read_to_end (L : LicText) {text : Str} (h : ∀ a ∈ attrs (lex text), ¬ Stops a) :
    ∃ s, TvState.run L {} (attrs (lex text)) = .ok s ∧ parseTagValue L text = s.result := by
  obtain ⟨s, hs⟩ := run_ok L _ {} (attrs_sound (lex_good text)) h
  refine ⟨s, hs, ?_⟩
  unfold parseTagValue
  rw [hs]

private theorem mentioned {L : LicText} {text : Str} {s : TvState} (hp : parseTagValue L text = s.result) {m : PMsg} (h : Logged m s) :
    ∃ ms, parseTagValue L text = .error (.parsing ms) ∧ Mentioned m ms := by
  obtain ⟨ms, hr, hm⟩ := h.result
  refine ⟨ms, hp.trans hr, ?_⟩
  rcases hm with hm | ⟨n, ms', hm, hm'⟩
  · exact .here hm
  · exact .inside hm (.here hm')

/-- Otherwise every attribute that is at fault is reported, with a message about it: nothing that came before keeps it from being read. -/
theorem each_fault_reported (L : LicText) (text : Str) (hs : ∀ a ∈ attrs (lex text), ¬ Stops a) (a : TvAttr) (ha : a ∈ attrs (lex text))
    (hf : Spec.Faulty L a) : ∃ m ms, About a m ∧ parseTagValue L text = .error (.parsing ms) ∧ Mentioned m ms := by
  obtain ⟨s, hr, hp⟩ := read_to_end L hs
  obtain ⟨s1, s2, bs, h1, h2⟩ := run_split ha hr
  obtain ⟨m, hm, hl⟩ := faulty_heard hf h1
  obtain ⟨ms, h⟩ := mentioned hp (hl.run h2)
  exact ⟨m, ms, hm, h⟩

/-- … and so is every tag that stands in an element of another kind … -/
theorem each_misplaced_reported (L : LicText) (text : Str) (hs : ∀ a ∈ attrs (lex text), ¬ Stops a) (tag : Str) (c : TvClass)
    (ho : (tag, c) ∈ owners) (v : Tok) (pre post : List TvAttr) (e : attrs (lex text) = pre ++ .value tag v :: post) (hc : current pre ≠ some c) :
    ∃ ms, parseTagValue L text = .error (.parsing ms) ∧ Mentioned (.text (s%"Element " ++ c.name ++ s%" is not the current element in scope")) ms := by
  obtain ⟨s, hr, hp⟩ := read_to_end L hs
  rw [e] at hr
  obtain ⟨s1, h1, h2⟩ := run_append_inv hr
  have hk := run_current h1
  rw [Option.or_none (o := current pre)] at hk
  rw [← hk] at hc
  unfold TvState.run at h2
  split at h2
  · rename_i s2 e2
    exact mentioned hp ((misplaced_heard ho hc e2).run h2)
  · cases h2

/-- … and every value of the wrong kind, in a text that has an element anywhere (without one see `C51.wrong_kind_lost`). -/
theorem each_wrong_kind_reported (L : LicText) (text : Str) (hs : ∀ a ∈ attrs (lex text), ¬ Stops a)
    (he : ∃ a ∈ attrs (lex text), (opens a).isSome) (tag : Str) (ha : .bad tag ∈ attrs (lex text)) :
    ∃ ms, parseTagValue L text = .error (.parsing ms) ∧ Mentioned (.text (s%"Error while parsing " ++ tag)) ms := by
  obtain ⟨s, hr, hp⟩ := read_to_end L hs
  obtain ⟨s1, s2, bs, h1, h2⟩ := run_split ha hr
  have hm := pending_run (bad_pending h1) h2
  have hc : s.cls ≠ none := run_cls (.inr (by
    obtain ⟨a, h1, h2⟩ := he
    exact ⟨a, h1, by rw [starts_eq]; exact h2⟩)) hr
  refine mentioned hp ?_
  rcases hm with hm | hm
  · exact hm
  · exact .inr (.inr (.inl ⟨hc, hm⟩))

/-! ## Examples -/

private def crash : Str := s%"Created: then\nRelationship: NONE\nCreator: Person: (a)\n"
private theorem crash_attrs : attrs (lex crash) = [.bad s%"Created", .bad s%"Relationship", .value s%"Creator" (.person s%"Person: (a)")] := by
  decide +kernel

/-- A malformed relationship: `KeyError` -/
theorem crash_raises (L : LicText) : C66.Uncaught (parseTagValue L crash) :=
  (uncaught_iff L crash).2 ⟨[.bad s%"Created"], _, crash_attrs, fun a ha e h => by
    cases List.mem_singleton.1 ha
    cases h⟩

private def abort : Str := s%"Created: then\nCreator: Person: (a)\nRelationship: NONE\n"
private theorem abort_attrs : attrs (lex abort) = [.bad s%"Created", .value s%"Creator" (.person s%"Person: (a)"), .bad s%"Relationship"] := by
  decide +kernel

/-- A malformed creator: one message, though the date before it and the relationship after it are at fault as well. -/
theorem abort_message (L : LicText) : parseTagValue L abort = .error (.parsing [.text s%"No name for Actor provided"]) :=
  bad_actor L abort [.bad s%"Created"] _ _ .noName abort_attrs (fun a ha h => by
    cases List.mem_singleton.1 ha
    rcases h with h | ⟨e, h⟩ <;> cases h) (.creator rfl)

private def faults : Str := s%"Created: then\nFoo: x\nPackageName: p\nBuiltDate: 2023-13-01T00:00:00Z\nFileNotice: n\nPackageChecksum: SHA1: 12\nRelationship: a b\n"
private theorem faults_attrs : attrs (lex faults) = [.bad s%"Created", .unknown, .value s%"PackageName" (.line s%"p"),
    .value s%"BuiltDate" (.date s%"2023-13-01T00:00:00Z"), .value s%"FileNotice" (.line s%"n"), .value s%"PackageChecksum" (.checksum s%"SHA1: 12"),
    .commented s%"Relationship" s%"a b" none] := by decide +kernel

private theorem faults_go_on : ∀ a ∈ attrs (lex faults), ¬ Stops a := by
  rw [faults_attrs]
  intro a ha
  simp only [List.mem_cons, List.not_mem_nil, or_false] at ha
  rcases ha with rfl | rfl | rfl | rfl | rfl | rfl | rfl
  all_goals
    rintro (h | ⟨e, h⟩)
    · cases h
    · cases h

/-- A text with five faults that is read to its end. -/
example (L : LicText) : ∃ ms, parseTagValue L faults = .error (.parsing ms) ∧ Mentioned (.text s%"Error while parsing Created") ms ∧
    Mentioned (.text s%"Unknown tag provided") ms ∧
    Mentioned (.text s%"Element File is not the current element in scope") ms := by
  have h1 := each_wrong_kind_reported L faults faults_go_on ⟨.value s%"PackageName" (.line s%"p"), by rw [faults_attrs]; simp, rfl⟩ s%"Created"
    (by rw [faults_attrs]; simp)
  have h2 := each_misplaced_reported L faults faults_go_on s%"FileNotice" .file (by decide +kernel) (.line s%"n")
    [.bad s%"Created", .unknown, .value s%"PackageName" (.line s%"p"), .value s%"BuiltDate" (.date s%"2023-13-01T00:00:00Z")] _ faults_attrs (by decide +kernel)
  have h3 := each_fault_reported L faults faults_go_on .unknown (by rw [faults_attrs]; simp) .unknown
  obtain ⟨ms, e, h1⟩ := h1
  refine ⟨ms, e, h1, ?_, ?_⟩
  · obtain ⟨m, ms', ha, e', h⟩ := h3
    rw [e] at e'
    cases e'
    cases ha
    exact h
  · obtain ⟨ms', e', h⟩ := h2
    rw [e] at e'
    cases e'
    exact h

example (L : LicText) : Spec.Faulty L (.value s%"BuiltDate" (.date s%"2023-13-01T00:00:00Z")) := .date (by decide) (by decide +kernel)

example : ∃ c, checksumFromTv s%"SHA1: 12" = some c := checksums_read faults s%"PackageChecksum" (.checksum s%"SHA1: 12") (by decide) (by rw [faults_attrs]; simp)

end Spdx.C68
