import Verif.Lemmas.QuietLines
/-
C82: blank lines and comments between the lines of a tag-value text make no difference.

`Spec/QuietLines` says what may be put in (`QuietLines`) and where: wherever a rule of the lexer starts (`Reaches`). Two forms of texts are
described of which this can be seen without the lexer: lines without `<text>` whose values are beside the tags (`SameLineValues`), and such lines
together with texts in `<text>` and `</text>` (`Tidy`). Inside a text, and between a tag and a value on the next line, a comment does make a
difference. The line numbers in messages (C79) do change.
-/
namespace Spdx.C82
open Spec

private theorem same {a c b : Str} (ha : WholeLines a) (hc : QuietLines c) (h : Reaches (a ++ b) b)
    (he : b ≠ [] ∨ ¬ s%"</text>" <:+: c ∨ ¬ s%"<text>" <:+: a) : lex (a ++ c ++ b) = lex (a ++ b) := by
  rw [List.append_assoc]
  refine Quiet.insert_like (Quiet.like_quiet hc b) ha h ?_
  by_cases hb : b = []
  · subst hb
    rw [List.append_nil]
    exact .inr ((he.resolve_left fun h => h rfl).imp_left Quiet.cut_infix)
  · exact .inl hb

private theorem parse {L : LicText} {s s' : Str} (h : lex s = lex s') : parseTagValue L s = parseTagValue L s' := by
  unfold parseTagValue
  rw [h]

/-! ## Theorems -/

/-- Blank lines and comments wherever the lexer gets to at the start of a line: the text gives the same document, or is refused with the same
messages. (At the end of a text, a comment could close a `<text>` that is left open.) -/
theorem anywhere {a c b : Str} (L : LicText) (ha : WholeLines a) (hc : QuietLines c) (h : Reaches (a ++ b) b)
    (he : b ≠ [] ∨ ¬ s%"</text>" <:+: c ∨ ¬ s%"<text>" <:+: a) : parseTagValue L (a ++ c ++ b) = parseTagValue L (a ++ b) :=
  parse (same ha hc h he)

/-- At the start of the text. -/
theorem at_start {c : Str} (L : LicText) (hc : QuietLines c) (b : Str) : parseTagValue L (c ++ b) = parseTagValue L b :=
  anywhere (a := []) L (.inl rfl) hc (.here b) (.inr (.inr (by decide)))

private theorem split_lines (b : Str) : ∃ n b', b = n ++ b' ∧ (∀ x ∈ n, x = '\n') ∧ b'.head? ≠ some '\n' := by
  induction b with
  | nil => exact ⟨[], [], rfl, by simp, by simp⟩
  | cons x b ih =>
    by_cases hx : x = '\n'
    · obtain ⟨n, b', rfl, h1, h2⟩ := ih
      exact ⟨x :: n, b', rfl, by simpa [hx] using h1, h2⟩
    · exact ⟨[], x :: b, rfl, by simp, by simpa using hx⟩

private theorem quiet_lines {c n : Str} (hc : QuietLines c) (hn : ∀ x ∈ n, x = '\n') : QuietLines (c ++ n) := by
  induction hc with
  | nil =>
    induction n with
    | nil => exact .nil
    | cons x n ih =>
      rw [hn x (List.mem_cons_self ..)]
      exact .blank (w := []) (by simp) (ih fun y hy => hn y (List.mem_cons_of_mem _ hy))
  | blank hw _ ih =>
    rw [List.append_assoc]
    exact .blank hw ih
  | comment hw hb _ ih =>
    rw [List.append_assoc, List.cons_append, List.append_assoc]
    exact .comment hw hb ih

/-- Between any two lines of a text, if in the lines before the place every colon is followed by something on its line and there is no `<text>`. -/
theorem between_lines {a c : Str} (L : LicText) (ha : WholeLines a) (hs : SameLineValues a) (ht : ¬ s%"<text>" <:+: a) (hc : QuietLines c) (b : Str) :
    parseTagValue L (a ++ c ++ b) = parseTagValue L (a ++ b) := by
  obtain ⟨n, b', rfl, h1, h2⟩ := split_lines b
  have hr := Quiet.reaches_within ha hs ht h2
  refine parse ?_
  have e1 := same ha (quiet_lines hc h1) hr (.inr (.inr ht))
  have e2 := same ha (quiet_lines .nil h1) hr (.inr (.inr ht))
  rw [List.nil_append] at e2
  rw [← List.append_assoc, List.append_assoc a c n, e1, ← List.append_assoc, e2]

/-- Between the lines and texts of a tidy text, before something that starts at the margin. -/
theorem in_tidy {a c b : Str} (L : LicText) (ha : Tidy a) (hb : StartsPlain b) (hc : QuietLines c) (he : b ≠ [] ∨ ¬ s%"</text>" <:+: c) :
    parseTagValue L (a ++ c ++ b) = parseTagValue L (a ++ b) :=
  anywhere L (Quiet.tidy_lines ha) hc (Quiet.reaches_tidy ha hb) (he.imp_right .inl)

/-! ## Concrete cases -/

/-- `SameLineValues`, computed. -/
private def sameLine : Str → Bool
  | [] => true
  | c :: r => (c ≠ ':' || (r.takeWhile (· ≠ '\n')).any fun x => !isPySpace x) && sameLine r

private theorem sameLine_sound : ∀ {s : Str}, sameLine s = true → SameLineValues s
  | [], _ => fun a b e => by cases a <;> cases e
  | c :: s, h => by
    simp only [sameLine, Bool.and_eq_true, Bool.or_eq_true, decide_eq_true_eq, List.any_eq_true, Bool.not_eq_true'] at h
    intro a b e
    cases a with
    | nil =>
      simp only [List.nil_append, List.cons.injEq] at e
      obtain ⟨rfl, rfl⟩ := e
      rcases h.1 with h | h
      · exact absurd rfl h
      · exact h
    | cons d a =>
      simp only [List.cons_append, List.cons.injEq] at e
      exact sameLine_sound h.2 a b e.2

private def head : Str :=
  s%"SPDXVersion: SPDX-2.3\nDataLicense: CC0-1.0\nSPDXID: SPDXRef-DOCUMENT\nDocumentName: d\nDocumentNamespace: https://a.b\nCreator: Tool: t\nCreated: 2023-01-01T00:00:00Z\n"

private def quiet : Str := s%"\n  \t\n# Package: p\n  ## more\n\n"

private theorem quiet_is : QuietLines quiet :=
  .blank (w := []) (by simp) (.blank (w := s%"  \t") (by decide) (.comment (w := []) (body := s%" Package: p") (by simp) (by decide)
    (.comment (w := s%"  ") (body := s%"# more") (by decide) (by decide) (.blank (w := []) (by simp) .nil))))

private def lics : LicText := ⟨fun _ => [], fun s => if strip s = [] then some none else none⟩

private def rest : Str := s%"\nPackageName: p\nSPDXID: SPDXRef-p\nPackageDownloadLocation: NONE\n"

private theorem head_lines : WholeLines head := .inr ⟨head.dropLast, by decide +kernel⟩

-- the conditions of `between_lines`, and of `anywhere` at the same place
example : parseTagValue lics (head ++ quiet ++ rest) = parseTagValue lics (head ++ rest) ∧ lex rest ≠ [] :=
  ⟨between_lines lics head_lines (sameLine_sound (by decide +kernel)) (by decide +kernel) quiet_is rest, by decide +kernel⟩

private def block : Str := s%"DocumentComment: <text>a\n\nb: c\n</text>\n"

-- the conditions of `in_tidy`
private theorem tidy : Tidy (head ++ block) :=
  .plain head_lines (sameLine_sound (by decide +kernel)) (by decide +kernel) (by intro x hx; cases hx; rfl)
    (.block (key := s%"DocumentComment") (w := s%" ") (content := s%"a\n\nb: c\n") (c := []) (by decide +kernel) (by decide) (by decide) (by decide +kernel)
      (by simp [StartsPlain]) .nil)

example : parseTagValue lics (head ++ block ++ quiet ++ s%"PackageName: p\n") = parseTagValue lics (head ++ block ++ s%"PackageName: p\n") :=
  in_tidy lics tidy (by intro x hx; cases hx; rfl) quiet_is (.inl (by decide))

/-- The comment of the document that is read. -/
private def commentOf (r : Py Document) : Option (Option Str) :=
  match r with
  | .ok d => some d.creationInfo.documentComment
  | .error _ => none

/-- Inside a text a comment does make a difference, and so does one between a tag and its value on the next line. -/
theorem elsewhere_matters : ∃ L : LicText, ∃ c, QuietLines c ∧
    (∃ a b, WholeLines a ∧ b ≠ [] ∧ parseTagValue L (a ++ b) ≠ parseTagValue L (a ++ c ++ b)) ∧
    (∃ a b, WholeLines a ∧ b ≠ [] ∧ ¬ s%"<text>" <:+: a ∧ parseTagValue L (a ++ b) ≠ parseTagValue L (a ++ c ++ b)) := by
  refine ⟨lics, quiet, quiet_is, ⟨head ++ s%"DocumentComment: <text>a\n", s%"</text>\n", .inr ⟨head ++ s%"DocumentComment: <text>a", by simp⟩, by decide, fun h => ?_⟩,
    ⟨head ++ s%"Creator:\n", s%"Person: a\n", .inr ⟨head ++ s%"Creator:", by simp⟩, by decide, by decide +kernel, fun h => ?_⟩⟩
  all_goals
    have := congrArg commentOf h
    revert this
    decide +kernel

end Spdx.C82
