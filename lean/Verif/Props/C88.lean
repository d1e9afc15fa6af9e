import Verif.Lemmas.TvLines
import Verif.Props.C87
/-
C88: A tag-value text is read as its entries, wherever blanks, blank lines and comments stand between and around them.
-/
namespace Spdx.C88
open Spec (Entries Blanks TagWord LineValue LineOver QuietLines)

private theorem parse {L : LicText} {s s' : Str} (h : lex s = lex s') : parseTagValue L s = parseTagValue L s' := by
  unfold parseTagValue
  rw [h]

/-! ## Theorems -/

/-- Texts with the same entries have the same outcome: the same document, or the same messages. -/
theorem same_entries (L : LicText) {es : List (Str × Str)} {t t' : Str} (h : Entries es t) (h' : Entries es t') :
    parseTagValue L t = parseTagValue L t' :=
  parse (by rw [TvLines.entries_tokens h, TvLines.entries_tokens h'])

/-- So have files, whatever their line ends. -/
theorem same_file (L : LicText) {es : List (Str × Str)} {t t' : Str} (h : Entries es (universalNewlines t)) (h' : Entries es (universalNewlines t')) :
    parseTagValueFile L t = parseTagValueFile L t' := same_entries L h h'

/-- The plainest text with the given entries. -/
def plainly (es : List (Str × Str)) : Str := es.flatMap fun e => e.1 ++ s%": " ++ e.2 ++ ['\n']

private theorem plainly_over : ∀ es, LineOver ('\n' :: plainly es) := fun _ => .inr rfl

/-- Every text with entries is read as the text with one line for each of them, a colon and a blank between tag and value, and nothing else. -/
theorem plain_text (L : LicText) {es : List (Str × Str)} {t : Str} (h : Entries es t) :
    Entries es (plainly es) ∧ parseTagValue L t = parseTagValue L (plainly es) := by
  have none : Blanks [] := by intro c hc; cases hc
  have blank : Blanks [' '] := by intro c hc; simp at hc; exact .inl hc
  have hp : Entries es (plainly es) := by
    induction h with
    | done _ => exact .done none
    | remark _ _ => exact .done none
    | quiet _ _ ih => exact ih
    | @line i k g h v w x es _ hk _ _ hv _ _ _ ih =>
      have := Entries.line (es := es) none hk none blank hv none (plainly_over es) (.quiet (c := ['\n']) (.blank (w := []) none .nil) ih)
      simpa [plainly] using this
    | @text i k g h content w x es _ hk _ _ hc _ _ _ ih =>
      have := Entries.text (es := es) (h := [' ']) none hk none (by decide) hc none (plainly_over es)
        (.quiet (c := ['\n']) (.blank (w := []) none .nil) ih)
      simpa [plainly] using this
  exact ⟨hp, same_entries L h hp⟩

/-! ## Concrete cases -/

private def entries : List (Str × Str) :=
  [(s%"SPDXVersion", s%"SPDX-2.3"), (s%"DataLicense", s%"CC0-1.0"), (s%"SPDXID", s%"SPDXRef-DOCUMENT"), (s%"DocumentName", s%"a name"),
   (s%"DocumentNamespace", s%"https://some.uri"), (s%"Creator", s%"Person: p (p@q.r)"), (s%"Created", s%"2020-01-01T00:00:00Z"),
   (s%"DocumentComment", s%"<text>a \n b</text>"), (s%"FileName", s%"./f"), (s%"SPDXID", s%"SPDXRef-f"),
   (s%"FileChecksum", s%"SHA1:  85ed0817af83a24ad8da68c2b5094de69833983c")]

private instance decBlanks (w : Str) : Decidable (Blanks w) := inferInstanceAs (Decidable (∀ x ∈ w, _))
private instance decTag (k : Str) : Decidable (TagWord k) := inferInstanceAs (Decidable (_ ∧ ∀ x ∈ k, _))

private theorem value {v : Str} (c d : Char) (h : '\n' ∉ v ∧ (¬ s%"<text>" <:+: v) ∧ (v.head? = some c ∧ isPySpace c = false) ∧
    v.getLast? = some d ∧ isPySpace d = false ∧ d ≠ ':') : LineValue v := ⟨h.1, h.2.1, ⟨c, h.2.2.1⟩, ⟨d, h.2.2.2⟩⟩

private def text : Str :=
  s%"\n # a file\n  SPDXVersion\t:SPDX-2.3  \nDataLicense :  CC0-1.0\t\n\n\nSPDXID:SPDXRef-DOCUMENT\n\tDocumentName: a name \nDocumentNamespace:https://some.uri\n" ++
  s%"Creator  :  Person: p (p@q.r)   \n## date: \nCreated : 2020-01-01T00:00:00Z  \nDocumentComment : \n\n  <text>a \n b</text>  \n" ++
  s%"\tFileName:./f\n\tSPDXID:SPDXRef-f\n\tFileChecksum:\tSHA1:  85ed0817af83a24ad8da68c2b5094de69833983c\t\n  # the end: of the file"

private theorem text_entries : Entries entries text := by
  have tail : Entries [(s%"FileName", s%"./f"), (s%"SPDXID", s%"SPDXRef-f"),
      (s%"FileChecksum", s%"SHA1:  85ed0817af83a24ad8da68c2b5094de69833983c")]
      s%"\tFileName:./f\n\tSPDXID:SPDXRef-f\n\tFileChecksum:\tSHA1:  85ed0817af83a24ad8da68c2b5094de69833983c\t\n  # the end: of the file" :=
    .line (i := s%"\t") (g := []) (h := []) (w := []) (by decide) (by decide +kernel) (by decide) (by decide) (value '.' 'f' (by decide +kernel)) (by decide) (.inr rfl)
    (.quiet (c := ['\n']) (.blank (w := []) (by decide) .nil)
    (.line (i := s%"\t") (g := []) (h := []) (w := []) (by decide) (by decide +kernel) (by decide) (by decide) (value 'S' 'f' (by decide +kernel)) (by decide) (.inr rfl)
    (.quiet (c := ['\n']) (.blank (w := []) (by decide) .nil)
    (.line (i := s%"\t") (g := []) (h := s%"\t") (w := s%"\t") (by decide) (by decide +kernel) (by decide) (by decide) (value 'S' 'c' (by decide +kernel)) (by decide) (.inr rfl)
    (.quiet (c := ['\n']) (.blank (w := []) (by decide) .nil) (.remark (w := s%"  ") (by decide) (by decide)))))))
  have middle : Entries ((s%"Creator", s%"Person: p (p@q.r)") :: (s%"Created", s%"2020-01-01T00:00:00Z") :: (s%"DocumentComment", s%"<text>a \n b</text>") :: _)
      (s%"Creator  :  Person: p (p@q.r)   \n## date: \nCreated : 2020-01-01T00:00:00Z  \nDocumentComment : \n\n  <text>a \n b</text>  \n" ++ _) :=
    .line (i := []) (g := s%"  ") (h := s%"  ") (w := s%"   ") (by decide) (by decide +kernel) (by decide) (by decide) (value 'P' ')' (by decide +kernel)) (by decide) (.inr rfl)
    (.quiet (c := s%"\n## date: \n") (.blank (w := []) (by decide) (.comment (w := []) (body := s%"# date: ") (by decide) (by decide) .nil))
    (.line (i := []) (g := s%" ") (h := s%" ") (w := s%"  ") (by decide) (by decide +kernel) (by decide) (by decide) (value '2' 'Z' (by decide +kernel)) (by decide) (.inr rfl)
    (.quiet (c := ['\n']) (.blank (w := []) (by decide) .nil)
    (.text (i := []) (k := s%"DocumentComment") (g := s%" ") (h := s%" \n\n  ") (content := s%"a \n b") (w := s%"  ") (by decide) (by decide +kernel) (by decide) (by decide) (by decide +kernel) (by decide) (.inr rfl)
    (.quiet (c := ['\n']) (.blank (w := []) (by decide) .nil) tail)))))
  exact .quiet (c := s%"\n # a file\n") (.blank (w := []) (by decide) (.comment (w := s%" ") (body := s%" a file") (by decide) (by decide) .nil))
    (.line (i := s%"  ") (g := s%"\t") (h := []) (w := s%"  ") (by decide) (by decide +kernel) (by decide) (by decide) (value 'S' '3' (by decide +kernel)) (by decide) (.inr rfl)
    (.quiet (c := ['\n']) (.blank (w := []) (by decide) .nil)
    (.line (i := []) (g := s%" ") (h := s%"  ") (w := s%"\t") (by decide) (by decide +kernel) (by decide) (by decide) (value 'C' '0' (by decide +kernel)) (by decide) (.inr rfl)
    (.quiet (c := s%"\n\n\n") (.blank (w := []) (by decide) (.blank (w := []) (by decide) (.blank (w := []) (by decide) .nil)))
    (.line (i := []) (g := []) (h := []) (w := []) (by decide) (by decide +kernel) (by decide) (by decide) (value 'S' 'T' (by decide +kernel)) (by decide) (.inr rfl)
    (.quiet (c := ['\n']) (.blank (w := []) (by decide) .nil)
    (.line (i := s%"\t") (g := []) (h := s%" ") (w := s%" ") (by decide) (by decide +kernel) (by decide) (by decide) (value 'a' 'e' (by decide +kernel)) (by decide) (.inr rfl)
    (.quiet (c := ['\n']) (.blank (w := []) (by decide) .nil)
    (.line (i := []) (g := []) (h := []) (w := []) (by decide) (by decide +kernel) (by decide) (by decide) (value 'h' 'i' (by decide +kernel)) (by decide) (.inr rfl)
    (.quiet (c := ['\n']) (.blank (w := []) (by decide) .nil) middle))))))))))

private theorem plain_read (L : LicText) : ∃ d, parseTagValue L (plainly entries) = .ok d ∧ d.creationInfo.name = s%"a name" ∧
    d.creationInfo.documentComment = some s%"a \n b" ∧ d.files.map (·.name) = [s%"./f"] := by
  unfold parseTagValue
  have e : attrs (lex (plainly entries)) =
      [.value s%"SPDXVersion" (.line s%"SPDX-2.3"), .value s%"DataLicense" (.line s%"CC0-1.0"), .spdxId s%"SPDXRef-DOCUMENT",
       .value s%"DocumentName" (.line s%"a name"), .value s%"DocumentNamespace" (.line s%"https://some.uri"),
       .value s%"Creator" (.person s%"Person: p (p@q.r)"), .value s%"Created" (.date s%"2020-01-01T00:00:00Z"),
       .value s%"DocumentComment" (.text s%"<text>a \n b</text>"), .value s%"FileName" (.line s%"./f"), .spdxId s%"SPDXRef-f",
       .value s%"FileChecksum" (.checksum s%"SHA1:  85ed0817af83a24ad8da68c2b5094de69833983c")] := by decide +kernel
  rw [e]
  exact ⟨_, rfl, rfl, rfl, rfl⟩

/-- A text full of blanks and comments is read as the document it is about. -/
example (L : LicText) : ∃ d, parseTagValue L text = .ok d ∧ d.creationInfo.name = s%"a name" ∧ d.creationInfo.documentComment = some s%"a \n b" ∧
    d.files.map (·.name) = [s%"./f"] := by
  rw [(plain_text L text_entries).2]
  exact plain_read L

end Spdx.C88
