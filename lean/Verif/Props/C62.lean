import Verif.Lemmas.PatGroups2
import Verif.Lemmas.PatIds
import Verif.Lemmas.PatUri
import Verif.Model.Validation
import Verif.Props.C04
/-
C62: the texts that the validators and readers accept are those that the regular expressions in the source match.

Model/Patterns holds the patterns as they are written in the source, character by character; Spec/PyRe says what Python's `re` makes of
such a text (`pyMatch`, `pySub`).
-/
namespace Spdx.C62
open Spdx PatRun PatLang PatIds PatUri PatGroups Re Pat

/-! ## Validators -/

/-- SPDX identifiers, external document references and license references. -/
theorem identifiers (s : Str) :
    (pyMatch {} PatText.spdxId s).isSome = isValidInternalSpdxId s ∧
    (pyMatch {} PatText.documentRef s).isSome = isValidExternalDocRefId s ∧
    (pyMatch {} PatText.licenseRef s).isSome = dollar (idBody s%"LicenseRef-" isIdChar) s :=
  ⟨pyMatch_dollar spdxId_parsed (by decide +kernel) (idPat_same _ (by decide) idItems_test) (idBody_iff _ _) s,
   pyMatch_dollar documentRef_parsed (by decide +kernel) (idPat_same _ (by decide) docItems_test) (idBody_iff _ _) s,
   pyMatch_dollar licenseRef_parsed (by decide +kernel) (idPat_same _ (by decide) idItems_test) (idBody_iff _ _) s⟩

private theorem exact_hex {text : Str} (n : Nat) (hp : parsePattern text = some (cat (.bos :: [.times (cls hexItems) n .eps] ++ [.eos]), []))
    (hl : (cat [.times (cls hexItems) n .eps]).plain = true) (s : Str) : (pyMatch {} text s).isSome = dollar (hexBody (n, some n)) s :=
  pyMatch_dollar hp hl (hex_exact n) (hex_iff _ fun m h => by cases h; exact Nat.le_refl _) s

/-- The value of a package verification code. -/
theorem verification_code (s : Str) : (pyMatch {} PatText.verificationCodeValue s).isSome = dollar (hexBody (40, some 40)) s :=
  exact_hex 40 (by decide +kernel) (by decide +kernel) s

/-- Checksum values, for each algorithm. -/
theorem checksum_values (a : ChecksumAlgorithm) (s : Str) :
    (pyMatch {} (PatText.checksumValue a) s).isSome = dollar (hexBody (algorithmLength a)) s := by
  cases a
  case BLAKE3 =>
    exact pyMatch_dollar (l := [hexPat (256, none)]) (names := []) (by decide +kernel) (by decide +kernel) (hex_same (256, none))
      (hex_iff _ fun m h => by cases h) s
  case MD6 =>
    exact pyMatch_dollar (l := [hexPat (0, some 512)]) (names := []) (by decide +kernel) (by decide +kernel) (hex_same (0, some 512))
      (hex_iff _ fun m h => by cases h; decide) s
  all_goals exact exact_hex _ (by decide +kernel) (by decide +kernel) s

private theorem locator_types : PatText.typeToRegex.map (·.1) = typeToRegex.map (·.1) := by decide +kernel

private theorem lookup_zip {β γ : Type} {P : β → γ → Prop} : ∀ {l : List (Str × β)} {l' : List (Str × γ)},
    l.map (·.1) = l'.map (·.1) → (∀ x ∈ l.zip l', P x.1.2 x.2.2) → ∀ t,
    (l.lookup t = none ∧ l'.lookup t = none) ∨ ∃ b c, l.lookup t = some b ∧ l'.lookup t = some c ∧ P b c
  | [], [], _, _, t => .inl ⟨rfl, rfl⟩
  | (k, b) :: l, (k', c) :: l', hk, hP, t => by
    simp only [List.map_cons, List.cons.injEq] at hk
    obtain ⟨rfl, hk⟩ := hk
    rw [List.zip_cons_cons] at hP
    rw [List.lookup_cons, List.lookup_cons]
    cases ht : t == k with
    | true => exact .inr ⟨b, c, rfl, rfl, hP _ (List.mem_cons_self ..)⟩
    | false => exact lookup_zip hk (fun x hx => hP x (List.mem_cons_of_mem _ hx)) t

/-- The locators of external references, for the types that have a pattern. -/
theorem locators (t s : Str) : locatorMatches t s = ((PatText.typeToRegex.lookup t).any fun p => (pyMatch {} p s).isSome) := by
  have := lookup_zip (P := fun p r => (pyMatch {} p s).isSome = anchored r s) locator_types (by
    intro x hx
    simp only [PatText.typeToRegex, typeToRegex, List.zip_cons_cons, List.zip_nil_left, List.mem_cons, List.not_mem_nil, or_false] at hx
    rcases hx with rfl | rfl | rfl | rfl | rfl | rfl | rfl | rfl | rfl
    · exact pyMatch_anchored cpe22_parsed (by decide +kernel) cpe22_same s
    · exact pyMatch_anchored cpe23_parsed (by decide +kernel) cpe23_same s
    · exact pyMatch_anchored maven_parsed (by decide +kernel) maven_same s
    · exact pyMatch_anchored npm_parsed (by decide +kernel) (two_same '@') s
    · exact pyMatch_anchored nuget_parsed (by decide +kernel) (two_same '/') s
    · exact pyMatch_anchored bower_parsed (by decide +kernel) (two_same '#') s
    · exact pyMatch_anchored purl_parsed (by decide +kernel) purl_same s
    · exact pyMatch_anchored swh_parsed (by decide +kernel) swh_same s
    · exact pyMatch_anchored gitoid_parsed (by decide +kernel) gitoid_same s) t
  unfold locatorMatches
  rcases this with ⟨h1, h2⟩ | ⟨p, r, h1, h2, h3⟩
  · rw [h1, h2]
    rfl
  · rw [h1, h2]
    exact h3.symm

/-- URLs: `re.compile(url_pattern, re.IGNORECASE).match(s)`.  Which characters are word characters is a parameter of the model. -/
theorem urls (X : Ext) (s : Str) : (pyMatch (ci X.isWord) PatText.url s).isSome = urlOk X s := by
  unfold pyMatch
  rw [url_parsed, Option.bind_some, first_pref _ (by decide +kernel)]
  unfold urlOk
  rw [Bool.eq_iff_iff, pref_iff, pref_iff]
  simp only [url_same X 1 _]

/-- Download locations. -/
theorem download_locations (X : Ext) (s : Str) :
    ((pyMatch (ci X.isWord) PatText.url s).isSome || (pyMatch (ci X.isWord) PatText.downloadLocation s).isSome) = downloadLocationOk X s := by
  rw [urls, downloadLocationOk,
    pyMatch_anchored (l := [downloadLocation]) downloadLocation_parsed (by decide +kernel) (downloadLocation_same X) s]

/-! ## Readers -/

private theorem numbers_match (sep : Char) (hs : isPyDigit sep = false) {text : Str} (hp : parsePattern text = some (numbers sep, [])) (s : Str) :
    (pyMatch {} text s).map (fun m => (m.group 1, m.group 2)) = (numSplit sep s).map fun x => (some x.1, some x.2.1) := by
  unfold pyMatch
  rw [hp, Option.bind_some, numbers_first sep hs, Option.map_map]
  rfl

/-- spdx/model/version.py L22-28 `from_string`, with the pattern -/
def versionByPattern (s : Str) : Option Version :=
  match (pyMatch {} PatText.version s).map fun m => (m.group 1, m.group 2) with
  | some (some a, some b) => match digitsVal? a, digitsVal? b with
    | some x, some y => some ⟨x, y⟩
    | _, _ => none
  | _ => none

/-- Versions. -/
theorem versions (s : Str) : versionFromString s = versionByPattern s := by
  unfold versionByPattern
  rw [numbers_match '.' (by decide +kernel) version_parsed]
  have hall : ∀ a : Str, a.all isPyDigit = true ↔ ∀ c ∈ a, isPyDigit c = true := fun a => List.all_eq_true
  have he : ∀ v, versionFromString s = some v ↔ ∃ a b t, numSplit '.' s = some (a, b, t) ∧ digitsVal? a = some v.major ∧ digitsVal? b = some v.minor := by
    intro v
    rw [C04.read_iff]
    constructor
    · rintro ⟨a, b, hs, ⟨ha, da, va⟩, ⟨hb, db, vb⟩⟩
      rcases hs with rfl | rfl
      · exact ⟨a, b, [], (numSplit_iff '.' (by decide +kernel) _ a b []).2 ⟨by simp, ha, hb, (hall a).2 da, (hall b).2 db, .inl rfl⟩, va, vb⟩
      · exact ⟨a, b, ['\n'], (numSplit_iff '.' (by decide +kernel) _ a b ['\n']).2 ⟨rfl, ha, hb, (hall a).2 da, (hall b).2 db, .inr rfl⟩, va, vb⟩
    · rintro ⟨a, b, t, hn, va, vb⟩
      obtain ⟨hs, ha, hb, da, db, ht⟩ := (numSplit_iff '.' (by decide +kernel) s a b t).1 hn
      refine ⟨a, b, ?_, ⟨ha, (hall a).1 da, va⟩, ⟨hb, (hall b).1 db, vb⟩⟩
      rcases ht with rfl | rfl
      · rw [List.append_nil] at hs; exact .inl hs
      · exact .inr hs
  cases hn : numSplit '.' s with
  | none =>
    cases hv : versionFromString s with
    | none => rfl
    | some v =>
      obtain ⟨a, b, t, h, _⟩ := (he v).1 hv
      rw [hn] at h
      cases h
  | some x =>
    obtain ⟨a, b, t⟩ := x
    dsimp only [Option.map_some]
    cases hv : versionFromString s with
    | some v =>
      obtain ⟨a', b', t', h, h1, h2⟩ := (he v).1 hv
      rw [hn] at h
      cases h
      rw [h1, h2]
    | none =>
      cases h1 : digitsVal? a with
      | none => rfl
      | some x =>
        cases h2 : digitsVal? b with
        | none => rfl
        | some y =>
          have := (he ⟨x, y⟩).2 ⟨a, b, t, hn, h1, h2⟩
          rw [hv] at this
          cases this

/-- parser.py L482-489 of the tag-value parser, with the pattern -/
def rangeByPattern (s : Str) : Option (Int × Int) :=
  match (pyMatch {} PatText.range (strip s)).map fun m => (m.group 1, m.group 2) with
  | some (some a, some b) => match digitsVal? a, digitsVal? b with
    | some x, some y => some (x, y)
    | _, _ => none
  | _ => none

/-- Ranges of snippets. -/
theorem ranges (s : Str) : parseTvRange s = rangeByPattern s := by
  unfold rangeByPattern parseTvRange
  rw [numbers_match ':' (by decide +kernel) range_parsed]
  have hd : isPyDigit ':' = false := by decide +kernel
  have hnd : ∀ a : Str, a.all isPyDigit = true → ':' ∉ a := by
    intro a ha hm
    have := List.all_eq_true.1 ha _ hm
    rw [hd] at this
    cases this
  cases hn : numSplit ':' (strip s) with
  | none =>
    split
    · rename_i a b hsp
      rw [splitOn_two] at hsp
      split
      · rename_i hc
        have := (numSplit_iff ':' hd (strip s) a b []).2 ⟨by rw [hsp.1]; simp, hc.1, hc.2.1, hc.2.2.1, hc.2.2.2, .inl rfl⟩
        rw [hn] at this
        cases this
      · rfl
    · rfl
  | some x =>
    obtain ⟨a, b, t⟩ := x
    obtain ⟨hs, ha, hb, da, db, ht⟩ := (numSplit_iff ':' hd (strip s) a b t).1 hn
    have ht' : t = [] := by
      rcases ht with h | h
      · exact h
      · exfalso
        rw [h] at hs
        have := ((strip_eq_self_iff (strip s)).1 (strip_trimmed s)).2 '\n' _ hs
        revert this
        decide +kernel
    rw [ht', List.append_nil] at hs
    have hsp : splitOn ':' (strip s) = [a, b] := (splitOn_two ':' _ a b).2 ⟨hs, hnd a da, hnd b db⟩
    rw [hsp]
    dsimp only [Option.map_some]
    rw [if_pos ⟨ha, hb, da, db⟩]
    cases digitsVal? a with
    | none => rfl
    | some x =>
      cases digitsVal? b with
      | none => rfl
      | some y => rfl

/-- actor_parser.py L35-53: the end of `parse_actor`, for the match of a person or an organization -/
def actorByMatch (ty : ActorType) (m : MSt) : Except ActorError Actor :=
  match m.group 3 with
  | some (c :: g) => .ok { actorType := ty, name := strip (c :: g) }
  | _ => match m.group 1, m.group 2 with
    | some (c :: g), some e => .ok { actorType := ty, name := strip (c :: g), email := if strip e = [] then none else some (strip e) }
    | _, _ => .error .noName

/-- actor_parser.py L15-53 `parse_actor`, with the patterns -/
def actorByPatterns (s : Str) : Except ActorError Actor :=
  match pyMatch {} PatText.tool s with
  | some m => match m.group 1 with
    | some g => if strip g = [] then .error .noToolName else .ok { actorType := .TOOL, name := strip g }
    | none => .error .noToolName
  | none => match pyMatch {} PatText.person s with
    | some m => actorByMatch .PERSON m
    | none => match pyMatch {} PatText.organization s with
      | some m => actorByMatch .ORGANIZATION m
      | none => .error .noMatch

private theorem byMatch (ty : ActorType) (m : MSt) (g : (Str × Str) ⊕ Str) (h : m.caps = actorCaps g) :
    actorByMatch ty m = actorFromGroups ty g := by
  unfold actorByMatch MSt.group
  rw [h]
  cases g with
  | inr c => cases c <;> rfl
  | inl x => obtain ⟨a, b⟩ := x; cases a <;> rfl

private theorem match_actor {text w : Str} (hp : parsePattern text = some (actor w, [])) (s : Str) :
    (pyMatch {} text s).map MSt.caps = ((dropPrefix? w s).bind actorGroups).map actorCaps := by
  unfold pyMatch
  rw [hp, Option.bind_some]
  exact actor_first w s

/-- Persons, organizations and tools. -/
theorem actors (s : Str) : parseActor s = actorByPatterns s := by
  unfold parseActor actorByPatterns
  have ht : (pyMatch {} PatText.tool s).map (·.group 1) = ((dropPrefix? s%"Tool:" s).bind toolGroup).map some := by
    unfold pyMatch
    rw [tool_parsed, Option.bind_some]
    exact tool_first s
  have hp := match_actor person_parsed s
  have ho := match_actor organization_parsed s
  cases h1 : pyMatch {} PatText.tool s with
  | some m =>
    rw [h1] at ht
    cases h2 : (dropPrefix? s%"Tool:" s).bind toolGroup with
    | none => rw [h2] at ht; cases ht
    | some g =>
      rw [h2, Option.map_some, Option.map_some, Option.some.injEq] at ht
      dsimp only
      rw [ht]
  | none =>
    rw [h1] at ht
    rw [Option.map_eq_none_iff.1 ht.symm]
    dsimp only
    cases h3 : pyMatch {} PatText.person s with
    | some m =>
      rw [h3] at hp
      cases h4 : (dropPrefix? s%"Person:" s).bind actorGroups with
      | none => rw [h4] at hp; cases hp
      | some g =>
        rw [h4, Option.map_some, Option.map_some, Option.some.injEq] at hp
        exact (byMatch _ m g hp).symm
    | none =>
      rw [h3] at hp
      rw [Option.map_eq_none_iff.1 hp.symm]
      dsimp only
      cases h5 : pyMatch {} PatText.organization s with
      | some m =>
        rw [h5] at ho
        cases h6 : (dropPrefix? s%"Organization:" s).bind actorGroups with
        | none => rw [h6] at ho; cases ho
        | some g =>
          rw [h6, Option.map_some, Option.map_some, Option.some.injEq] at ho
          exact (byMatch _ m g ho).symm
      | none =>
        rw [h5] at ho
        rw [Option.map_eq_none_iff.1 ho.symm]

/-- tagvalue/helper_methods.py L31-40 `str_from_text`, with the pattern -/
def textByPattern (s : Str) : Str :=
  match (pyMatch {} PatText.textBlock s).bind (·.group 1) with
  | some g => g
  | none => s

/-- Text blocks. -/
theorem text_blocks (s : Str) : strFromText s = textByPattern s := by
  have h : (pyMatch {} PatText.textBlock s).map (·.group 1) = match (dropPrefix? s%"<text>" s).bind (cutLast s%"</text>") with
      | some (c :: x) => some (some (c :: x))
      | _ => none := by
    unfold pyMatch
    rw [textBlock_parsed, Option.bind_some]
    exact textBlock_first s
  unfold strFromText textByPattern
  rw [show (pyMatch {} PatText.textBlock s).bind (·.group 1) = ((pyMatch {} PatText.textBlock s).map (·.group 1)).bind id by
    cases pyMatch {} PatText.textBlock s <;> rfl]
  rw [h]
  cases (dropPrefix? s%"<text>" s).bind (cutLast s%"</text>") with
  | none => rfl
  | some x => cases x <;> rfl

/-- The tag-value parser's value of an `ExternalDocumentRef`, with the pattern (parser.py L286-305) -/
def docRefByPattern (s : Str) : Except PMsg ExternalDocumentRef :=
  match pyMatch {} PatText.externalDocRef s with
  | none => .error (.text s%"Error while parsing ExternalDocumentRef: Couldn't match Checksum")
  | some m => match splitOn ' ' (strip ((m.group 1).elim [] id)), checksumFromTv (strip ((m.group 2).elim [] id)) with
    | [a, b], some c => .ok ⟨a, b, c⟩
    | _, _ => .error (.text s%"Error while parsing ExternalDocumentRef: Couldn't split the first part of the value")

/-- External document references of a tag-value document. -/
theorem document_refs (s : Str) (hn : '\n' ∉ s) : parseDocRef s = docRefByPattern s := by
  have h : (pyMatch {} PatText.externalDocRef s).map MSt.caps = (splitSha1 s).map fun x => [(2, x.2), (1, x.1)] := by
    unfold pyMatch
    rw [docRef_parsed, Option.bind_some]
    exact docRef_first s hn
  unfold parseDocRef docRefByPattern
  cases h1 : pyMatch {} PatText.externalDocRef s with
  | none =>
    rw [h1] at h
    rw [Option.map_eq_none_iff.1 h.symm]
  | some m =>
    rw [h1] at h
    cases h2 : splitSha1 s with
    | none => rw [h2] at h; cases h
    | some x =>
      obtain ⟨a, b⟩ := x
      rw [h2, Option.map_some, Option.map_some, Option.some.injEq] at h
      have e1 : m.group 1 = some a := by unfold MSt.group; rw [h]; rfl
      have e2 : m.group 2 = some b := by unfold MSt.group; rw [h]; rfl
      dsimp only
      rw [e1, e2]
      rfl

/-- The tag-value parser's value of a `PackageVerificationCode`, with the pattern (parser.py L417-430) -/
def codeByPattern (s : Str) : Option PackageVerificationCode :=
  match pyMatch {} PatText.verificationCode s with
  | none => none
  | some m => some ⟨(m.group 1).elim [] id, match m.group 3 with
    | some (c :: g) => splitOn ',' (c :: g)
    | _ => []⟩

private theorem excludes_ne {s : Str} : excludesGroup s ≠ some [] := by
  unfold excludesGroup
  split
  · simp
  · split
    · rename_i body _ _ _
      cases body.getLast? <;> simp
    · rename_i h
      intro e
      rw [Option.some.injEq] at e
      exact h e

/-- Verification codes of a tag-value document. -/
theorem verification_codes (s : Str) (hn : '\n' ∉ s) : parseTvCode s = codeByPattern s := by
  have h : (pyMatch {} PatText.verificationCode s).map (fun m => (m.group 1, m.group 3)) =
      if (s.take 40).length = 40 ∧ (s.take 40).all isLowerHex then
        some (some (s.take 40), (dropPrefix? s%"(excludes:" ((s.drop 40).dropWhile isPySpace)).bind excludesGroup) else none := by
    unfold pyMatch
    rw [code_parsed, Option.bind_some]
    exact code_first s hn
  unfold parseTvCode codeByPattern
  by_cases hc : (s.take 40).length = 40 ∧ (s.take 40).all isLowerHex
  · rw [if_pos hc] at h ⊢
    cases h1 : pyMatch {} PatText.verificationCode s with
    | none => rw [h1] at h; cases h
    | some m =>
      rw [h1, Option.map_some, Option.some.injEq, Prod.mk.injEq] at h
      dsimp only
      rw [h.1, h.2]
      cases hx : (dropPrefix? s%"(excludes:" ((s.drop 40).dropWhile isPySpace)).bind excludesGroup with
      | none => rfl
      | some g =>
        cases g with
        | cons c g => rfl
        | nil =>
          exfalso
          rw [Option.bind_eq_some_iff] at hx
          obtain ⟨r, _, hr⟩ := hx
          exact excludes_ne hr
  · rw [if_neg hc] at h ⊢
    rw [Option.map_eq_none_iff] at h
    rw [h]

/-- The values to which these two are applied are on one line. -/
theorem line_values (text v : Str) (h : Tok.line v ∈ lex text) : '\n' ∉ v := by
  have hval : ∀ r, (lexValue r).1 = some (.line v) → '\n' ∉ v := by
    intro r hr hm
    unfold lexValue at hr
    dsimp only at hr
    repeat' split at hr
    all_goals first
      | (cases hr; done)
      | (unfold reservedTok at hr
         repeat' split at hr
         all_goals first
           | (cases hr; done)
           | (simp only [Option.some.injEq, Tok.line.injEq] at hr
              rw [← hr] at hm
              have := mem_of_mem_strip hm
              exact all_dot.1 List.all_takeWhile this))
  have hone : ∀ s r, lexOne s = some (some (.line v), r) → '\n' ∉ v := by
    intro s r hs
    cases s with
    | nil => cases hs
    | cons c s =>
      rw [lexOne] at hs
      split at hs
      · rw [Option.some.injEq] at hs
        exact hval s (by rw [hs])
      · unfold reservedTok at hs
        repeat' split at hs
        all_goals (cases hs; done)
  have hscan : ∀ n s, Tok.line v ∈ scan lexOne n s → '\n' ∉ v := by
    intro n
    induction n with
    | zero => intro s hs; cases hs
    | succ n ih =>
      intro s hs
      rw [scan] at hs
      cases ho : lexOne s with
      | none => rw [ho] at hs; cases hs
      | some x =>
        obtain ⟨a, r⟩ := x
        rw [ho] at hs
        dsimp only at hs
        rw [List.mem_append] at hs
        rcases hs with hs | hs
        · cases a with
          | none => cases hs
          | some t =>
            rw [Option.toList_some, List.mem_singleton] at hs
            exact hone s r (by rw [ho, ← hs])
        · exact ih r hs
  exact hscan _ _ h

/-! ## Names -/

/-- casing_tools.py: the substitutions of both functions. -/
theorem casing (s : Str) :
    snakeToCamel s = (match ((pySub {} PatText.separators (fun _ => s%" ") s).map fun t => (titleAux false t).filter (· ≠ ' ')) with
      | some (c :: cs) => some (toLowerC c :: cs)
      | _ => none) ∧
    some (camelToSnake s) = (pySub {} PatText.capitals (fun m => '_' :: (m.group 1).elim [] id) s).map fun t => t.map toLowerC := by
  have h2 : pySub {} PatText.capitals (fun m => '_' :: (m.group 1).elim [] id) s = (match s with
      | [] => some []
      | c :: cs => some (c :: insertUnderscores false cs)) := by
    unfold pySub
    rw [capitals_parsed, Option.map_some]
    show some (capPat.sub {} underscoreGroup s) = _
    rw [cap_sub_all]
    cases s <;> rfl
  have h1 : pySub {} PatText.separators (fun _ => s%" ") s = some (collapseSeps false s) := by
    unfold pySub
    rw [separators_parsed, Option.map_some]
    exact congrArg some (sep_sub _ _ (Nat.le_refl _))
  refine ⟨?_, ?_⟩
  · rw [h1, snakeToCamel, Option.map_some]
    cases (titleAux false (collapseSeps false s)).filter (· ≠ ' ') <;> rfl
  · rw [h2]
    cases s <;> rfl

/-! ## Non-vacuity -/

example : (pyMatch {} PatText.spdxId s%"SPDXRef-a.1").isSome = true ∧ (pyMatch {} PatText.spdxId s%"SPDXRef-a b").isSome = false := by
  decide +kernel
example : actorByPatterns s%"Person: Jane Doe (jane@example.com)" = .ok ⟨.PERSON, s%"Jane Doe", some s%"jane@example.com"⟩ := by decide +kernel
example : actorByPatterns s%"Tool: sbom-maker" = .ok ⟨.TOOL, s%"sbom-maker", none⟩ := by decide +kernel
example : (pyMatch {} PatText.externalDocRef s%"DocumentRef-a https://b SHA1: d6a770ba38583ed4bb4525bd96e50461655d2759").isSome = true ∧
    '\n' ∉ s%"DocumentRef-a https://b SHA1: d6a770ba38583ed4bb4525bd96e50461655d2759" := by decide +kernel
example : codeByPattern s%"d6a770ba38583ed4bb4525bd96e50461655d2759 (excludes: ./a, ./b)" =
    some ⟨s%"d6a770ba38583ed4bb4525bd96e50461655d2759", [s%"./a", s%" ./b"]⟩ := by decide +kernel
example : Tok.line s%"SPDX-2.3" ∈ lex s%"SPDXVersion: SPDX-2.3\n" := by decide +kernel
example : textByPattern s%"<text>a\nb</text>" = s%"a\nb" := by decide +kernel

end Spdx.C62
