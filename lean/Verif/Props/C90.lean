import Verif.Lemmas.JsonCut
import Verif.Props.C63
import Verif.Props.C72
/-
C90: A JSON file that was cut short, or that has something after its end, is never read as a document.
-/
namespace Spdx.C90
open Spec.JsonGrammar (JsonText Ws)

/-- There is something other than white space in the text. -/
def Substance (r : Str) : Prop := ∃ c ∈ r, c ∉ [' ', '\t', '\n', '\r']

private theorem not_ws {r : Str} (h : Substance r) : ¬ Ws r := by
  obtain ⟨c, hc, hn⟩ := h
  intro hw
  exact hn (by simpa using hw c hc)

/-- Lines are told apart in a part of a text as in the whole of it, and what else is in the remainder stays. -/
private theorem newlines_part : ∀ (n : Nat) (u r : Str), u.length ≤ n → ∃ r', universalNewlines (u ++ r) = universalNewlines u ++ r' ∧
    (Substance r → Substance r') := by
  have keep : ∀ (n : Nat) (r : Str), r.length ≤ n → ∀ c ∈ r, c ≠ '\n' → c ≠ '\r' → c ∈ universalNewlines r := by
    intro n
    induction n with
    | zero => intro r hn c hc; rw [List.length_eq_zero_iff.1 (Nat.le_zero.1 hn)] at hc; cases hc
    | succ n ih =>
      intro r hn c hc h1 h2
      rw [universalNewlines.eq_def]
      split
      · cases hc
      · rename_i r
        simp only [List.length_cons] at hn
        simp only [List.mem_cons, h1, h2, false_or] at hc ⊢
        exact ih r (by omega) c hc h1 h2
      · rename_i r _
        simp only [List.length_cons] at hn
        simp only [List.mem_cons, h1, h2, false_or] at hc ⊢
        exact ih r (by omega) c hc h1 h2
      · rename_i d r _ _
        simp only [List.length_cons] at hn
        rcases List.mem_cons.1 hc with rfl | hc
        · exact List.mem_cons_self
        · exact List.mem_cons_of_mem _ (ih r (by omega) c hc h1 h2)
  have substance : ∀ r, Substance r → Substance (universalNewlines r) := by
    rintro r ⟨c, hc, hn⟩
    exact ⟨c, keep _ r (Nat.le_refl _) c hc (fun e => hn (by simp [e])) (fun e => hn (by simp [e])), hn⟩
  intro n
  induction n with
  | zero =>
    intro u r hn
    rw [List.length_eq_zero_iff.1 (Nat.le_zero.1 hn)]
    exact ⟨universalNewlines r, rfl, substance r⟩
  | succ n ih =>
    intro u r hn
    match u with
    | [] => exact ⟨universalNewlines r, rfl, substance r⟩
    | c :: u =>
      simp only [List.length_cons] at hn
      by_cases hc : c = '\r'
      · subst hc
        match u with
        | [] =>
          match r with
          | [] => exact ⟨[], by simp, id⟩
          | d :: r =>
            by_cases hd : d = '\n'
            · subst hd
              refine ⟨universalNewlines r, by simp [universalNewlines], ?_⟩
              rintro ⟨c, hc, hn⟩
              rcases List.mem_cons.1 hc with rfl | hc
              · exact absurd (by simp) hn
              · exact substance r ⟨c, hc, hn⟩
            · exact ⟨universalNewlines (d :: r), by simp [universalNewlines, hd], substance _⟩
        | d :: u =>
          by_cases hd : d = '\n'
          · subst hd
            simp only [List.length_cons] at hn
            obtain ⟨r', e, h⟩ := ih u r (by omega)
            exact ⟨r', by simp [universalNewlines, e], h⟩
          · obtain ⟨r', e, h⟩ := ih (d :: u) r (by omega)
            refine ⟨r', ?_, h⟩
            have : ∀ z, universalNewlines ('\r' :: d :: z) = '\n' :: universalNewlines (d :: z) := fun z => by simp [universalNewlines, hd]
            rw [List.cons_append, List.cons_append, this, this]
            exact congrArg _ e
      · obtain ⟨r', e, h⟩ := ih u r (by omega)
        have : ∀ z, universalNewlines (c :: z) = c :: universalNewlines z := fun z => by simp [universalNewlines, hc]
        exact ⟨r', by rw [List.cons_append, this, this, e]; rfl, h⟩

/-- What is read as a document is an object. -/
private theorem object_read {L : LicText} {j : Json} {d : Document} (h : parseDocument L (loadJson j) = .ok d) : ∃ o, j = .obj o := by
  cases j with
  | obj o => exact ⟨o, rfl⟩
  | null => exact absurd h (by intro h; cases h)
  | bool b => exact absurd h (by intro h; cases h)
  | num i => exact absurd h (by intro h; cases h)
  | str s => exact absurd h (by intro h; cases h)
  | arr l => exact absurd h (by intro h; cases h)

private theorem document_text {L : LicText} {s : Str} {d : Document} (h : parseJsonFile L s = .parsed (.ok d)) :
    ∃ o, JsonText (.obj o) (universalNewlines s) := by
  unfold parseJsonFile at h
  cases e : loadText (universalNewlines s) with
  | none => rw [e] at h; cases h
  | some v =>
    rw [e] at h
    dsimp only at h
    cases e2 : v.toJson with
    | none => rw [e2] at h; cases h
    | some j =>
      rw [e2] at h
      obtain ⟨o, rfl⟩ := object_read (JsonRead.parsed.inj h)
      have hv := (C63.accepts_iff _ _).1 e
      cases v with
      | obj o => exact ⟨o, hv⟩
      | null => cases e2
      | bool b => cases e2
      | num i => cases e2
      | float f => cases e2
      | str s => exact absurd e2 (by rw [Raw.toJson]; cases codePoints s <;> simp)
      | arr l => exact absurd e2 (by rw [Raw.toJson]; cases Raw.listToJson l <;> simp)

private theorem refused {L : LicText} {u : Str} (h : ∀ v, ¬ JsonText v (universalNewlines u)) : parseJsonFile L u = .malformed := by
  unfold parseJsonFile
  cases e : loadText (universalNewlines u) with
  | none => rfl
  | some v => exact absurd ((C63.accepts_iff _ _).1 e) (h v)

/-- If a file is read as a document, then what is left of it after losing its end, at any place before the last character that is no white
    space, is refused as malformed. -/
theorem cut_short (L : LicText) (u r : Str) (d : Document) (h : parseJsonFile L (u ++ r) = .parsed (.ok d)) (hr : Substance r) :
    parseJsonFile L u = .malformed := by
  obtain ⟨o, ho⟩ := document_text h
  obtain ⟨r', e, hs⟩ := newlines_part _ u r (Nat.le_refl _)
  exact refused fun v => JsonCut.part ho e (not_ws (hs hr)) v

/-- If a file is read as a document, then the file with anything but white space after it is refused as malformed: for example what was left
    of a longer file that it replaced. -/
theorem more_after (L : LicText) (s r : Str) (d : Document) (h : parseJsonFile L s = .parsed (.ok d)) (hr : Substance r) :
    parseJsonFile L (s ++ r) = .malformed := by
  obtain ⟨o, ho⟩ := document_text h
  obtain ⟨r', e, hs⟩ := newlines_part _ s r (Nat.le_refl _)
  exact refused fun v => by
    rw [e]
    exact JsonCut.more ho (not_ws (hs hr)) v

/-- No two files of which both are read as documents continue one another, except with white space. -/
theorem prefix_free (L : LicText) (u r : Str) (d d' : Document) (h : parseJsonFile L (u ++ r) = .parsed (.ok d))
    (h' : parseJsonFile L u = .parsed (.ok d')) : ∀ c ∈ r, c ∈ [' ', '\t', '\n', '\r'] := by
  intro c hc
  by_cases hn : c ∈ [' ', '\t', '\n', '\r']
  · exact hn
  · rw [cut_short L u r d h ⟨c, hc, hn⟩] at h'
    cases h'

private theorem newlines_same (s : Str) (h : ∀ c ∈ s, c ≠ '\r') : universalNewlines s = s := by
  induction s with
  | nil => rfl
  | cons c s ih =>
    have hc := h c (List.mem_cons_self ..)
    have he : universalNewlines (c :: s) = c :: universalNewlines s := by
      rw [universalNewlines.eq_def]
      split
      · rename_i e; cases e
      · rename_i e; cases e; exact absurd rfl hc
      · rename_i e; cases e; exact absurd rfl hc
      · rename_i e; cases e; rfl
    rw [he, ih fun x hx => h x (List.mem_cons_of_mem _ hx)]

private theorem written_end (width : Nat) (o : List (Str × Json)) : ∃ b, dumpJson width 0 (.obj o) = b ++ ['}'] := by
  match o with
  | [] => exact ⟨['{'], by rw [dumpJson]; rfl⟩
  | (k, j) :: l => exact ⟨'{' :: _, by rw [dumpJson, List.cons_append]⟩

/-- Whatever document is being written, valid or not: if the writing stops before the end, at whatever character, the file is refused as
    malformed. -/
theorem written_cut (L L' : LicText) (d : Document) (u r : Str) (h : writeJsonText L d = some (u ++ r)) (hr : r ≠ []) :
    parseJsonFile L' u = .malformed := by
  unfold writeJsonText at h
  cases e : documentToJson L d with
  | none => rw [e] at h; cases h
  | some j =>
    rw [e] at h
    have h := Option.some.inj h
    obtain ⟨o, rfl, _⟩ := C63.document_distinct L d j e
    obtain ⟨o', hj⟩ : ∃ o', JsonText (.obj o') (dumpJson 4 0 (.obj o)) := ⟨_, C63.written_is_json 4 (.obj o)⟩
    obtain ⟨b, eb⟩ := written_end 4 o
    have hs : Substance r := by
      refine ⟨'}', ?_, by decide⟩
      have : (u ++ r).getLast? = some '}' := by rw [← h, eb]; simp
      rw [List.getLast?_append, List.getLast?_eq_some_getLast hr] at this
      have := Option.some.inj this
      exact this ▸ List.getLast_mem hr
    have hn : universalNewlines (u ++ r) = u ++ r := by
      rw [← h]
      exact newlines_same _ (by
        rintro c hc rfl
        rcases C63.written_ascii 4 _ _ hc with h | h <;> revert h <;> decide)
    obtain ⟨r', e', hs'⟩ := newlines_part _ u r (Nat.le_refl _)
    refine refused fun v => JsonCut.part (s := universalNewlines (u ++ r)) (o := o') ?_ e' (not_ws (hs' hs)) v
    rw [hn, ← h]
    exact hj

/-- The command says so and leaves every file as it is. -/
theorem command_cut (B : Libraries) (a : CliArgs) (w : World) (u r : Str) (d : Document) (hn : fileNameToFormat a.infile = .ok .JSON)
    (hf : w.files a.infile = some u) (h : parseJsonFile B.lic (u ++ r) = .parsed (.ok d)) (hr : Substance r) :
    cliReport B a w = (.told (.malformed .JSON), w) := by
  have e : readNamed B a.infile w = .error .decode := by
    unfold readNamed
    rw [hn]
    dsimp only
    rw [hf]
    show readJsonFile B u = _
    unfold readJsonFile
    rw [cut_short B.lic u r d h hr]
  unfold cliReport
  rw [e]
  rfl

private def head : Str :=
  s%"SPDXVersion: SPDX-2.3\nDataLicense: CC0-1.0\nSPDXID: SPDXRef-DOCUMENT\nDocumentName: n\nDocumentNamespace: https://some.uri\nCreator: Person: p\nCreated: 2020-01-01T00:00:00Z\n"
private def tail : Str := s%"PackageName: p\nSPDXID: SPDXRef-p\nPackageDownloadLocation: NONE\n"

private theorem head_read (L : LicText) : ∃ d, parseTagValueFile L head = .ok d ∧ d.packages = [] := by
  unfold parseTagValueFile parseTagValue
  have e : attrs (lex (universalNewlines head)) =
      [.value s%"SPDXVersion" (.line s%"SPDX-2.3"), .value s%"DataLicense" (.line s%"CC0-1.0"), .spdxId s%"SPDXRef-DOCUMENT",
       .value s%"DocumentName" (.line s%"n"), .value s%"DocumentNamespace" (.line s%"https://some.uri"), .value s%"Creator" (.person s%"Person: p"),
       .value s%"Created" (.date s%"2020-01-01T00:00:00Z")] := by decide +kernel
  rw [e]
  exact ⟨_, rfl, rfl⟩

private theorem all_read (L : LicText) : ∃ d, parseTagValueFile L (head ++ tail) = .ok d ∧ d.packages.map (·.name) = [s%"p"] := by
  unfold parseTagValueFile parseTagValue
  have e : attrs (lex (universalNewlines (head ++ tail))) =
      [.value s%"SPDXVersion" (.line s%"SPDX-2.3"), .value s%"DataLicense" (.line s%"CC0-1.0"), .spdxId s%"SPDXRef-DOCUMENT",
       .value s%"DocumentName" (.line s%"n"), .value s%"DocumentNamespace" (.line s%"https://some.uri"), .value s%"Creator" (.person s%"Person: p"),
       .value s%"Created" (.date s%"2020-01-01T00:00:00Z"),
       .value s%"PackageName" (.line s%"p"), .spdxId s%"SPDXRef-p", .value s%"PackageDownloadLocation" .none] := by decide +kernel
  rw [e]
  exact ⟨_, rfl, rfl⟩

/-- Tag-value files have no such protection: without its end, a file with a package can be read as a document without packages. -/
theorem tag_value_cut (L : LicText) : ∃ u r d d', Substance r ∧ parseTagValueFile L (u ++ r) = .ok d ∧ parseTagValueFile L u = .ok d' ∧
    d.packages.map (·.name) = [s%"p"] ∧ d'.packages = [] := by
  obtain ⟨d, h, hp⟩ := all_read L
  obtain ⟨d', h', hp'⟩ := head_read L
  exact ⟨head, tail, d, d', ⟨'P', by decide, by decide⟩, h, h', hp, hp'⟩

/-! ## Concrete cases -/

private def begun : Str :=
  s%"{\"SPDXID\": \"SPDXRef-DOCUMENT\", \"creationInfo\": {\"created\": \"2020-01-01T00:00:00Z\", \"creators\": [\"Tool: t\"]}, \"dataLicense\": \"CC0-1.0\", \"name\": \"n }"
private def ended : Str := s%"\", \"spdxVersion\": \"SPDX-2.3\", \"documentNamespace\": \"https://some.uri\"}\n"

private def meant : Json :=
  .obj [(s%"SPDXID", .str s%"SPDXRef-DOCUMENT"),
    (s%"creationInfo", .obj [(s%"created", .str s%"2020-01-01T00:00:00Z"), (s%"creators", .arr [.str s%"Tool: t"])]),
    (s%"dataLicense", .str s%"CC0-1.0"), (s%"name", .str s%"n }"), (s%"spdxVersion", .str s%"SPDX-2.3"),
    (s%"documentNamespace", .str s%"https://some.uri")]

set_option maxRecDepth 100000 in
private theorem meant_text : loadText (universalNewlines (begun ++ ended)) = some meant.raw := by rfl

private theorem whole_read (L : LicText) : ∃ d, parseJsonFile L (begun ++ ended) = .parsed (.ok d) ∧ d.creationInfo.name = s%"n }" := by
  unfold parseJsonFile
  rw [meant_text]
  dsimp only
  rw [toJson_raw]
  exact ⟨_, rfl, rfl⟩

/-- A file cut short within a string that contains a closing brace. -/
example (L : LicText) : parseJsonFile L begun = .malformed := by
  obtain ⟨d, h, _⟩ := whole_read L
  exact cut_short L begun ended d h ⟨'}', by decide, by decide⟩

/-- A file with the end of an older one after it. -/
example (L : LicText) : parseJsonFile L (begun ++ ended ++ s%" ]}") = .malformed := by
  obtain ⟨d, h, _⟩ := whole_read L
  exact more_after L _ _ d h ⟨'}', by decide, by decide⟩

/-- The line feed at the end may be missing. -/
example : ¬ Substance ['\n'] := by rintro ⟨c, hc, hn⟩; exact hn (by simp_all)

/-- Every document whose dates can be represented has a text to be cut short. -/
example (L L' : LicText) (d : Document) (t : Str) (h : writeJsonText L d = some t) : parseJsonFile L' (t.take (t.length - 1)) = .malformed := by
  refine written_cut L L' d (t.take (t.length - 1)) (t.drop (t.length - 1)) (by rw [List.take_append_drop]; exact h) ?_
  intro e
  have hl := congrArg List.length e
  rw [List.length_drop, List.length_nil] at hl
  have : t = [] := List.length_eq_zero_iff.1 (by omega)
  subst this
  unfold writeJsonText at h
  cases e : documentToJson L d with
  | none => rw [e] at h; cases h
  | some j =>
    rw [e] at h
    obtain ⟨o, rfl, _⟩ := C63.document_distinct L d j e
    obtain ⟨b, eb⟩ := written_end 4 o
    have := Option.some.inj h
    rw [eb] at this
    simp at this

end Spdx.C90
