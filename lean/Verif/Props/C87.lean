import Verif.Spec.LineEnds
import Verif.Lemmas.Minified
import Verif.Props.C63
import Verif.Props.C81
import Verif.Props.C72
/-
C87: How lines end in a tag-value or JSON file, and how a JSON file is laid out, makes no difference.
-/
namespace Spdx.C87
open Spec (LineEnd SameLines SameTree minify)
open Spec.JsonGrammar (JsonText)

private theorem newlines_cons {c : Char} (hc : c ≠ '\r') (s : Str) : universalNewlines (c :: s) = c :: universalNewlines s := by
  rw [universalNewlines.eq_def]
  split
  · rename_i e; cases e
  · rename_i e; cases e; exact absurd rfl hc
  · rename_i e; cases e; exact absurd rfl hc
  · rename_i e; cases e; rfl

private theorem newlines_append {l : Str} (h : ∀ c ∈ l, c ≠ '\r' ∧ c ≠ '\n') (s : Str) : universalNewlines (l ++ s) = l ++ universalNewlines s := by
  induction l with
  | nil => rfl
  | cons c l ih =>
    rw [List.cons_append, newlines_cons (h c (by simp)).1, ih fun x hx => h x (by simp [hx])]
    rfl

private theorem newlines_end {e t : Str} (h : LineEnd e t) : universalNewlines (e ++ t) = '\n' :: universalNewlines t := by
  rcases h with rfl | rfl | ⟨rfl, h⟩
  · exact newlines_cons (by decide) t
  · rfl
  · show universalNewlines ('\r' :: t) = _
    rw [universalNewlines.eq_def]
    split
    · rename_i e; cases e
    · rename_i e; cases e; exact absurd rfl h
    · rename_i e; cases e; rfl
    · rename_i r _ h2 e
      obtain ⟨rfl, rfl⟩ := List.cons.inj e
      exact (h2 rfl).elim

private theorem newlines_same {t t' : Str} (h : SameLines t t') : universalNewlines t = universalNewlines t' := by
  induction h with
  | last _ => rfl
  | line hl he he' _ ih => rw [newlines_append hl, newlines_append hl, newlines_end he, newlines_end he', ih]

/-! ## Theorems -/

/-- A tag-value file with the same lines, however they end, has the same outcome: the same document, or the same messages. -/
theorem tag_value_line_ends (L : LicText) {t t' : Str} (h : SameLines t t') : parseTagValueFile L t = parseTagValueFile L t' := by
  unfold parseTagValueFile
  rw [newlines_same h]

/-- So has a JSON file. -/
theorem json_line_ends (L : LicText) {t t' : Str} (h : SameLines t t') : parseJsonFile L t = parseJsonFile L t' := by
  unfold parseJsonFile
  rw [newlines_same h]

/-- The command reads either the same, whatever the libraries do. -/
theorem command_line_ends (B : Libraries) (fmt : FileFormat) (hf : fmt = .JSON ∨ fmt = .TAG_VALUE) {t t' : Str} (h : SameLines t t') :
    readText B fmt t = readText B fmt t' := by
  rcases hf with rfl | rfl
  · show readJsonFile B t = readJsonFile B t'
    unfold readJsonFile
    rw [json_line_ends B.lic h]
  · show readEnd (parseTagValueFile B.lic t) = readEnd (parseTagValueFile B.lic t')
    rw [tag_value_line_ends B.lic h]

/-- JSON files whose texts stand for the same value, that is, which differ in white space between the tokens and in how characters and
    numbers are written, have the same outcome. -/
theorem json_layout (L : LicText) (t t' : Str) (v : Raw) (h : JsonText v (universalNewlines t)) (h' : JsonText v (universalNewlines t')) :
    parseJsonFile L t = parseJsonFile L t' := by
  unfold parseJsonFile
  rw [(C63.accepts_iff _ _).2 h, (C63.accepts_iff _ _).2 h']

/-- JSON files with the same trees, up to the order of members and members of other names, are read as the same document or both refused. -/
theorem json_members (L : LicText) (t t' : Str) (v v' : Raw) (j j' : Json) (h : JsonText v (universalNewlines t))
    (h' : JsonText v' (universalNewlines t')) (hj : v.toJson = some j) (hj' : v'.toJson = some j') (hs : SameTree (loadJson j) (loadJson j'))
    (d : Document) : parseJsonFile L t = .parsed (.ok d) ↔ parseJsonFile L t' = .parsed (.ok d) := by
  have e : parseJsonFile L t = .parsed (parseDocument L (loadJson j)) := by
    unfold parseJsonFile
    rw [(C63.accepts_iff _ _).2 h]
    simp only [hj]
  have e' : parseJsonFile L t' = .parsed (parseDocument L (loadJson j')) := by
    unfold parseJsonFile
    rw [(C63.accepts_iff _ _).2 h']
    simp only [hj']
  rw [e, e', JsonRead.parsed.injEq, JsonRead.parsed.injEq]
  exact C81.same_document L hs d

private theorem no_return (s : Str) (h : '\r' ∉ s) : universalNewlines s = s := by
  induction s with
  | nil => rfl
  | cons c s ih => rw [newlines_cons fun e => h (by simp [e]), ih fun hs => h (by simp [hs])]

/-- Leaving out the white space between the tokens of a JSON text makes no difference. -/
theorem json_minified (L : LicText) (t : Str) (v : Raw) (hr : '\r' ∉ t) (h : JsonText v t) :
    parseJsonFile L (minify false t) = parseJsonFile L t := by
  refine json_layout L _ _ v ?_ ?_
  · rw [no_return _ fun hc => hr (Minified.sub _ _ _ hc)]
    exact Minified.json h
  · rwa [no_return _ hr]

/-- JSON texts that differ only in white space between tokens have the same outcome. -/
theorem json_white_space (L : LicText) (t t' : Str) (v v' : Raw) (hr : '\r' ∉ t) (hr' : '\r' ∉ t') (h : JsonText v t) (h' : JsonText v' t')
    (e : minify false t = minify false t') : parseJsonFile L t = parseJsonFile L t' := by
  rw [← json_minified L t v hr h, ← json_minified L t' v' hr' h', e]

private theorem written_same (width : Nat) (j : Json) : universalNewlines (dumpJson width 0 j) = dumpJson width 0 j := by
  apply no_return
  intro hc
  rcases C63.written_ascii width j _ hc with h | h
  · exact absurd h (by decide)
  · exact absurd h.1 (by decide)

/-- A tree written with any indentation and any line ends is read as it is when written by the program. -/
theorem json_indentation (L : LicText) (width : Nat) (j : Json) (t : Str) (h : SameLines (dumpJson width 0 j) t) :
    parseJsonFile L t = parseJsonFile L (dumpJson 4 0 j) := by
  rw [← json_line_ends L h]
  refine json_layout L _ _ j.raw ?_ ?_ <;> rw [written_same]
  · exact C63.written_is_json width j
  · exact C63.written_is_json 4 j

/-! ### Files from elsewhere -/

private theorem replaced (e : Str) (he : e = ['\r', '\n'] ∨ e = ['\r']) (s : Str) (hs : '\r' ∉ s) :
    ∀ l : Str, (∀ c ∈ l, c ≠ '\r' ∧ c ≠ '\n') → SameLines (l ++ s) (l ++ replaceChar '\n' e s) := by
  have nolf : ∀ t : Str, '\r' ∉ t → (replaceChar '\n' e t).head? ≠ some '\n' := by
    intro t ht
    cases t with
    | nil => simp [replaceChar]
    | cons c t =>
      by_cases hc : c = '\n'
      · rcases he with rfl | rfl <;> simp [replaceChar, hc]
      · simp [replaceChar, hc]
  induction s with
  | nil => intro l hl; simpa [replaceChar] using SameLines.last hl
  | cons c s ih =>
    intro l hl
    have hs' : '\r' ∉ s := fun h => hs (List.mem_cons_of_mem _ h)
    by_cases hc : c = '\n'
    · subst hc
      have := SameLines.line (e := ['\n']) (e' := e) hl (.inl rfl) (t' := replaceChar '\n' e s) (by
        rcases he with rfl | rfl
        · exact .inr (.inl rfl)
        · exact .inr (.inr ⟨rfl, nolf s hs'⟩)) (by simpa using ih hs' [] (by simp))
      simpa [replaceChar] using this
    · have := ih hs' (l ++ [c]) (by
        intro x hx
        rcases List.mem_append.1 hx with hx | hx
        · exact hl x hx
        · obtain rfl := List.mem_singleton.1 hx
          exact ⟨fun e => hs (by simp [e]), hc⟩)
      simpa [replaceChar, hc] using this

/-- A text has the same lines if each line feed becomes a carriage return and a line feed, or a carriage return. -/
theorem converted_lines (s : Str) (hs : '\r' ∉ s) :
    SameLines s (replaceChar '\n' ['\r', '\n'] s) ∧ SameLines s (replaceChar '\n' ['\r'] s) :=
  ⟨replaced _ (.inl rfl) s hs [] (by simp), replaced _ (.inr rfl) s hs [] (by simp)⟩

/-! ## Concrete cases -/

private def text : Str := s%"SPDXVersion: SPDX-2.3\nDataLicense: CC0-1.0\nSPDXID: SPDXRef-DOCUMENT\nDocumentName: n\nDocumentNamespace: https://some.uri\nCreator: Person: p\nCreated: 2020-01-01T00:00:00Z\nDocumentComment: <text>a\nb</text>\nPackageName: p\nSPDXID: SPDXRef-p\nPackageDownloadLocation: NONE\n"

private theorem text_read (L : LicText) : ∃ d, parseTagValueFile L text = .ok d ∧ d.creationInfo.documentComment = some s%"a\nb" ∧
    d.packages.map (·.name) = [s%"p"] := by
  unfold parseTagValueFile parseTagValue
  have e : attrs (lex (universalNewlines text)) =
      [.value s%"SPDXVersion" (.line s%"SPDX-2.3"), .value s%"DataLicense" (.line s%"CC0-1.0"), .spdxId s%"SPDXRef-DOCUMENT",
       .value s%"DocumentName" (.line s%"n"), .value s%"DocumentNamespace" (.line s%"https://some.uri"), .value s%"Creator" (.person s%"Person: p"),
       .value s%"Created" (.date s%"2020-01-01T00:00:00Z"), .value s%"DocumentComment" (.text s%"<text>a\nb</text>"),
       .value s%"PackageName" (.line s%"p"), .spdxId s%"SPDXRef-p", .value s%"PackageDownloadLocation" .none] := by decide +kernel
  rw [e]
  exact ⟨_, rfl, rfl, rfl⟩

/-- A document with a text of two lines is read with a line feed between them from a file with any line ends. -/
example (L : LicText) : ∃ d, parseTagValueFile L (replaceChar '\n' ['\r', '\n'] text) = .ok d ∧ d.creationInfo.documentComment = some s%"a\nb" := by
  obtain ⟨d, h, hc, _⟩ := text_read L
  rw [tag_value_line_ends L (converted_lines text (by decide +kernel)).1] at h
  exact ⟨d, h, hc⟩

private def tree : Json := .obj [(s%"name", .str s%"n"), (s%"packages", .arr [.obj [(s%"SPDXID", .str s%"SPDXRef-p")]])]
private def compact : Str := s%"{\"name\":\"\\u006E\",\"packages\":[{\"SPDXID\":\"SPDXRef-p\"}]}"

/-- A tree written compactly, with another spelling of a character, is read as when it is indented. -/
example (L : LicText) : parseJsonFile L compact = parseJsonFile L (dumpJson 4 0 tree) := by
  refine json_layout L _ _ tree.raw ((C63.accepts_iff _ _).1 (by rfl)) ((C63.accepts_iff _ _).1 (by rfl))

/-- White space within a string is kept when that between tokens is left out. -/
example : minify false s%"{ \"a b\" :\t[ 1 ,\n\"\\\" c\" ] }\n" = s%"{\"a b\":[1,\"\\\" c\"]}" := by decide +kernel

example (L : LicText) : parseJsonFile L (minify false (dumpJson 4 0 tree)) = parseJsonFile L (dumpJson 4 0 tree) :=
  json_minified L _ tree.raw (by decide +kernel) (C63.written_is_json 4 tree)

/-- Both texts have to be JSON: white space also separates. -/
example : minify false s%"[1 2]" = minify false s%"[12]" ∧ loadText s%"[1 2]" = none ∧ (loadText s%"[12]").isSome := by
  refine ⟨by decide, by rfl, by rfl⟩

end Spdx.C87
