import Verif.Lemmas.JsonDump
import Verif.Props.C22
import Verif.Props.C54
import Verif.Props.C59
/-
C63: The texts accepted as JSON are exactly those of the JSON grammar, each stands for one value, and the text written for a document is
such a text, in plain ASCII, from which the same document is read.
-/
namespace Spdx.C63
open Spdx Spec Spec.JsonGrammar

/-! ### Specification: `Spec/JsonGrammar`; the tree of a document as a JSON value is `Json.raw` (Lemmas/JsonDump) -/

/-- The command's JSON serializer and parser are those of the program. -/
structure JsonProgram (E : CliEnv) : Prop where
  dump : ∀ j, E.dump.json j = { text := dumpJson 4 0 j }
  parse : ∀ text e, parseJsonFile E.lic text = .parsed (.ok e) → E.parse .JSON text = .ok e

/-- No text that is written for the document contains a backspace or a form feed. -/
def NoControl (L : LicText) (d : Document) : Prop := ∀ j, documentToJson L d = some j → C22.Clean j

/-! ### Theorems -/

/-- A text is read as a value exactly if it is a JSON text of that value. -/
theorem accepts_iff (s : Str) (v : Raw) : loadText s = some v ↔ JsonText v s := by
  unfold loadText
  constructor
  · intro h
    simp only [bind, Option.bind, pure] at h
    cases hs : scanValue (s.length + 1) (skipJsonSpace s) with
    | none => rw [hs] at h; cases h
    | some p =>
    obtain ⟨v', r⟩ := p
    rw [hs] at h
    dsimp only at h
    split at h
    · rename_i hr
      cases h
      obtain ⟨t, h1, h2⟩ := (scan_sound _).1 _ _ _ hs
      obtain ⟨w, hw, hws⟩ := skip_split s
      exact ⟨w, t, r, hw, h1, (skip_nil_iff r).1 hr, by rw [← h2]; exact hws⟩
    · cases h
  · rintro ⟨w, t, w', hw, h, hw', rfl⟩
    simp only [bind, Option.bind, pure]
    rw [skip_value hw h, (scan_complete _).1 v t w' h (by simp; omega) ?_]
    · dsimp only
      rw [if_pos ((skip_nil_iff w').2 hw')]
    · have := follows_ws hw' (r := []) (fun c hc => nomatch hc)
      rwa [List.append_nil] at this

/-- No text stands for two values. -/
theorem unambiguous (s : Str) (v w : Raw) (hv : JsonText v s) (hw : JsonText w s) : v = w := by
  have h1 := (accepts_iff s v).2 hv
  rw [(accepts_iff s w).2 hw] at h1
  exact (Option.some.inj h1).symm

/-- What is written is a JSON text of the tree, whatever the indentation. -/
theorem written_is_json (width : Nat) (j : Json) : JsonText j.raw (dumpJson width 0 j) :=
  ⟨[], _, [], nil_ws, dump_value width 0 j, nil_ws, by simp⟩

/-- It consists of printable ASCII characters and line feeds. -/
theorem written_ascii (width : Nat) (j : Json) : ∀ c ∈ dumpJson width 0 j, c = '\n' ∨ (32 ≤ c.toNat ∧ c.toNat ≤ 126) :=
  dump_printable width 0 j

/-- Reading what was written gives the tree. -/
theorem read_written (width : Nat) (j : Json) : (loadText (dumpJson width 0 j)).bind Raw.toJson = some j := by
  rw [(accepts_iff _ _).2 (written_is_json width j)]
  exact toJson_raw j

/-- Different trees are written differently. -/
theorem written_injective (width : Nat) (j k : Json) (h : dumpJson width 0 j = dumpJson width 0 k) : j = k := by
  have h1 := read_written width j
  rw [h, read_written width k] at h1
  exact (Option.some.inj h1).symm

private theorem newlines_same (s : Str) (h : ∀ c ∈ s, c ≠ '\r') : universalNewlines s = s := by
  induction s with
  | nil => rfl
  | cons c s ih =>
    have hc := h c (List.mem_cons_self ..)
    have he : universalNewlines (c :: s) = c :: universalNewlines s := by
      rw [universalNewlines.eq_def]
      split
      · rename_i e; cases e
      · rename_i e; cases e; exact absurd rfl hc
      · rename_i e; cases e; exact absurd rfl hc
      · rename_i e; cases e; rfl
    rw [he, ih fun x hx => h x (List.mem_cons_of_mem _ hx)]

private theorem written_newlines (width : Nat) (j : Json) : universalNewlines (dumpJson width 0 j) = dumpJson width 0 j := by
  apply newlines_same
  rintro c hc rfl
  rcases written_ascii width j _ hc with h | h
  · exact absurd h (by decide)
  · exact absurd h.1 (by decide)

/-! #### The trees of documents repeat no key -/

private theorem distinctL_iff (l : List Json) : C22.DistinctL l ↔ ∀ j ∈ l, C22.Distinct j := by
  induction l with
  | nil => simp [C22.DistinctL]
  | cons j l ih => simp [C22.DistinctL, ih]

private theorem distinctO_iff (l : List (Str × Json)) : C22.DistinctO l ↔ ∀ p ∈ l, C22.Distinct p.2 := by
  induction l with
  | nil => simp [C22.DistinctO]
  | cons p l ih => obtain ⟨k, v⟩ := p; simp [C22.DistinctO, ih]

private theorem zip_keys (keys : List Str) (vals : List (Option Json)) (p : Str × Json)
    (h : p ∈ (keys.zip vals).filterMap fun kv => kv.2.map (kv.1, ·)) : p.1 ∈ keys ∧ some p.2 ∈ vals := by
  obtain ⟨⟨k, v⟩, h1, h2⟩ := List.mem_filterMap.1 h
  obtain ⟨v', rfl, rfl⟩ := Option.map_eq_some_iff.1 h2
  exact ⟨(List.of_mem_zip h1).1, (List.of_mem_zip h1).2⟩

private theorem distinct_mkObj (keys : List Str) (hk : keys.Nodup) (vals : List (Option Json))
    (hv : ∀ j, some j ∈ vals → C22.Distinct j) : C22.Distinct (mkObj keys vals) := by
  refine ⟨?_, (distinctO_iff _).2 fun p hp => hv _ (zip_keys _ _ p hp).2⟩
  clear hv
  induction keys generalizing vals with
  | nil => exact .nil
  | cons k keys ih =>
    obtain ⟨h1, h2⟩ := List.nodup_cons.1 hk
    cases vals with
    | nil => exact .nil
    | cons v vals =>
      cases v with
      | none => exact ih h2 vals
      | some v =>
        rw [List.zip_cons_cons, List.filterMap_cons]
        dsimp only [Option.map]
        rw [List.map_cons, List.nodup_cons]
        refine ⟨?_, ih h2 vals⟩
        intro h
        obtain ⟨p, hp, he⟩ := List.mem_map.1 h
        have he : p.1 = k := he
        exact h1 (he ▸ (zip_keys _ _ p hp).1)

private theorem distinct_arr {l : List Json} (h : ∀ j ∈ l, C22.Distinct j) : C22.Distinct (.arr l) := (distinctL_iff l).2 h

private theorem distinct_orNone {l : List Json} (h : ∀ j ∈ l, C22.Distinct j) : ∀ j, orNone l = some j → C22.Distinct j := by
  intro j hj
  unfold orNone at hj
  split at hj
  · cases hj
  · cases hj; exact distinct_arr h

private theorem distinct_strs (l : List Str) : ∀ j ∈ jstrs l, C22.Distinct j := by
  intro j hj
  obtain ⟨s, _, rfl⟩ := List.mem_map.1 hj
  exact True.intro

private theorem distinct_texts {α : Type} (f : α → Str) (o : Option α) : ∀ j, o.map (fun a => Json.str (f a)) = some j → C22.Distinct j := by
  intro j hj
  cases o with
  | none => cases hj
  | some a => cases hj; exact True.intro

private theorem mapM_all {α : Type} {f : α → Option Json} (hf : ∀ a j, f a = some j → C22.Distinct j) :
    ∀ (l : List α) (js : List Json), l.mapM f = some js → ∀ j ∈ js, C22.Distinct j := by
  intro l
  induction l with
  | nil => intro js h; rw [List.mapM_nil] at h; cases h; intro j hj; cases hj
  | cons a l ih =>
    intro js h
    rw [List.mapM_cons] at h
    simp only [bind, Option.bind, pure] at h
    cases ha : f a with
    | none => rw [ha] at h; cases h
    | some j' =>
    cases hl : l.mapM f with
    | none => rw [ha, hl] at h; cases h
    | some js' =>
    rw [ha, hl] at h
    cases h
    intro j hj
    rcases List.mem_cons.1 hj with rfl | hj
    · exact hf a _ ha
    · exact ih js' hl j hj

private theorem distinct_checksum (c : Checksum) : C22.Distinct (checksumToJson c) := by
  refine distinct_mkObj _ (by decide +kernel) _ fun j hj => ?_
  simp only [List.mem_cons, List.not_mem_nil, or_false, Option.some.injEq] at hj
  rcases hj with rfl | rfl <;> exact True.intro

private theorem distinct_annotation (a : Annotation) (j : Json) (h : annotationToJson a = some j) : C22.Distinct j := by
  unfold annotationToJson at h
  simp only [bind, Option.bind, pure] at h
  split at h
  · cases h
  · cases h
    refine distinct_mkObj _ (by decide +kernel) _ fun j hj => ?_
    simp only [List.mem_cons, List.not_mem_nil, or_false, Option.some.injEq] at hj
    rcases hj with rfl | rfl | rfl | rfl <;> exact True.intro

private theorem distinct_annotations (d : Document) (id : Str) (o : Option Json) (h : annotationsOf d id = some o) :
    ∀ j, o = some j → C22.Distinct j := by
  unfold annotationsOf at h
  simp only [bind, Option.bind, pure] at h
  split at h
  · cases h
  · rename_i l hl
    cases h
    exact distinct_orNone (mapM_all distinct_annotation _ _ hl)

private theorem distinct_date (t : Option DateTime) (o : Option Json) (h : dateToJson t = some o) : ∀ j, o = some j → C22.Distinct j := by
  rintro j rfl
  unfold dateToJson at h
  split at h
  · cases h
  · obtain ⟨s, _, e⟩ := Option.map_eq_some_iff.1 h
    cases e; exact True.intro

private theorem distinct_info (c : CreationInfo) (j : Json) (h : creationInfoToJson c = some j) : C22.Distinct j := by
  unfold creationInfoToJson at h
  simp only [bind, Option.bind, pure] at h
  split at h
  · cases h
  · cases h
    refine distinct_mkObj _ (by decide +kernel) _ fun j hj => ?_
    simp only [List.mem_cons, List.not_mem_nil, or_false, Option.some.injEq] at hj
    rcases hj with rfl | h | h | h
    · exact True.intro
    · exact distinct_orNone (distinct_strs _) j h.symm
    · exact distinct_texts _ _ j h.symm
    · exact distinct_texts id _ j h.symm

private theorem distinct_file (L : LicText) (d : Document) (f : File) (j : Json) (h : fileToJson L d f = some j) : C22.Distinct j := by
  unfold fileToJson at h
  simp only [bind, Option.bind, pure] at h
  split at h
  · cases h
  · rename_i an han
    cases h
    refine distinct_mkObj _ (by decide +kernel) _ fun j hj => ?_
    simp only [List.mem_cons, List.not_mem_nil, or_false, Option.some.injEq] at hj
    rcases hj with rfl | h | h | h | h | h | h | h | h | rfl | h | h | h | h | h
    · exact True.intro
    · exact distinct_annotations _ _ _ han j h.symm
    · cases h
    · exact distinct_orNone (distinct_strs _) j h.symm
    · refine distinct_orNone ?_ j h.symm
      intro j hj; obtain ⟨c, _, rfl⟩ := List.mem_map.1 hj; exact distinct_checksum c
    · exact distinct_texts id _ j h.symm
    · exact distinct_texts _ _ j h.symm
    · exact distinct_orNone (distinct_strs _) j h.symm
    · cases h
    · exact True.intro
    · exact distinct_orNone (distinct_strs _) j h.symm
    · exact distinct_texts id _ j h.symm
    · exact distinct_texts _ _ j h.symm
    · exact distinct_orNone (distinct_strs _) j h.symm
    · exact distinct_texts id _ j h.symm

private theorem distinct_extref (r : ExternalPackageRef) : C22.Distinct (externalPackageRefToJson r) := by
  refine distinct_mkObj _ (by decide +kernel) _ fun j hj => ?_
  simp only [List.mem_cons, List.not_mem_nil, or_false, Option.some.injEq] at hj
  rcases hj with h | rfl | rfl | rfl
  · exact distinct_texts id _ j h.symm
  all_goals exact True.intro

private theorem distinct_code (v : PackageVerificationCode) : C22.Distinct (verificationCodeToJson v) := by
  refine distinct_mkObj _ (by decide +kernel) _ fun j hj => ?_
  simp only [List.mem_cons, List.not_mem_nil, or_false, Option.some.injEq] at hj
  rcases hj with h | rfl
  · exact distinct_orNone (distinct_strs _) j h.symm
  · exact True.intro

private theorem distinct_package (L : LicText) (d : Document) (p : Package) (j : Json) (h : packageToJson L d p = some j) : C22.Distinct j := by
  unfold packageToJson at h
  simp only [bind, Option.bind, pure] at h
  cases han : annotationsOf d p.spdxId with
  | none => rw [han] at h; cases h
  | some an =>
  cases hb : dateToJson p.builtDate with
  | none => rw [han, hb] at h; cases h
  | some b =>
  cases hr : dateToJson p.releaseDate with
  | none => rw [han, hb, hr] at h; cases h
  | some r =>
  cases hv : dateToJson p.validUntilDate with
  | none => rw [han, hb, hr, hv] at h; cases h
  | some v =>
  rw [han, hb, hr, hv] at h
  cases h
  refine distinct_mkObj _ (by decide +kernel) _ fun j hj => ?_
  simp only [List.mem_cons, List.not_mem_nil, or_false, Option.some.injEq] at hj
  rcases hj with rfl | h | h | h | h | h | h | h | rfl | h | rfl | h | h | h | h | h | rfl | h | h | h | h | h | h | h | h | h | h
  · exact True.intro
  · exact distinct_annotations _ _ _ han j h.symm
  · exact distinct_orNone (distinct_strs _) j h.symm
  · exact distinct_date _ _ hb j h.symm
  · refine distinct_orNone ?_ j h.symm
    intro j hj; obtain ⟨c, _, rfl⟩ := List.mem_map.1 hj; exact distinct_checksum c
  · exact distinct_texts id _ j h.symm
  · exact distinct_texts _ _ j h.symm
  · exact distinct_texts id _ j h.symm
  · exact True.intro
  · refine distinct_orNone ?_ j h.symm
    intro j hj; obtain ⟨c, _, rfl⟩ := List.mem_map.1 hj; exact distinct_extref c
  · exact True.intro
  · exact distinct_texts _ _ j h.symm
  · exact distinct_texts id _ j h.symm
  · exact distinct_texts _ _ j h.symm
  · exact distinct_texts _ _ j h.symm
  · exact distinct_orNone (distinct_strs _) j h.symm
  · exact True.intro
  · exact distinct_texts _ _ j h.symm
  · exact distinct_texts id _ j h.symm
  · obtain ⟨c, _, rfl⟩ := Option.map_eq_some_iff.1 h.symm; exact distinct_code c
  · exact distinct_texts _ _ j h.symm
  · exact distinct_date _ _ hr j h.symm
  · exact distinct_texts id _ j h.symm
  · exact distinct_texts id _ j h.symm
  · exact distinct_texts _ _ j h.symm
  · exact distinct_date _ _ hv j h.symm
  · exact distinct_texts id _ j h.symm

private theorem distinct_range (r : Int × Int) (file p : Str) (hp : p ≠ s%"reference") : C22.Distinct (rangeToJson r file p) := by
  have : ∀ i, C22.Distinct (pointerToJson file i p) := fun i => by
    refine ⟨?_, True.intro, True.intro, True.intro⟩
    simp [Ne.symm hp]
  exact ⟨by simp, this _, this _, True.intro⟩

private theorem distinct_snippet (L : LicText) (d : Document) (s : Snippet) (j : Json) (h : snippetToJson L d s = some j) : C22.Distinct j := by
  unfold snippetToJson at h
  simp only [bind, Option.bind, pure] at h
  split at h
  · cases h
  · rename_i an han
    cases h
    refine distinct_mkObj _ (by decide +kernel) _ fun j hj => ?_
    simp only [List.mem_cons, List.not_mem_nil, or_false, Option.some.injEq] at hj
    rcases hj with rfl | h | h | h | h | h | h | h | h | rfl | rfl
    · exact True.intro
    · exact distinct_annotations _ _ _ han j h.symm
    · exact distinct_orNone (distinct_strs _) j h.symm
    · exact distinct_texts id _ j h.symm
    · exact distinct_texts _ _ j h.symm
    · exact distinct_texts id _ j h.symm
    · exact distinct_texts _ _ j h.symm
    · exact distinct_orNone (distinct_strs _) j h.symm
    · exact distinct_texts id _ j h.symm
    · refine distinct_arr fun j hj => ?_
      unfold rangesToJson at hj
      rcases List.mem_cons.1 hj with rfl | hj
      · exact distinct_range _ _ _ (by decide)
      · split at hj
        · rw [List.mem_singleton.1 hj]; exact distinct_range _ _ _ (by decide)
        · cases hj
    · exact True.intro

private theorem distinct_relationship (r : Relationship) : C22.Distinct (relationshipToJson r) := by
  refine distinct_mkObj _ (by decide +kernel) _ fun j hj => ?_
  simp only [List.mem_cons, List.not_mem_nil, or_false, Option.some.injEq] at hj
  rcases hj with rfl | h | rfl | rfl
  · exact True.intro
  · exact distinct_texts id _ j h.symm
  all_goals exact True.intro

private theorem distinct_extracted (e : ExtractedLicensingInfo) : C22.Distinct (extractedToJson e) := by
  refine distinct_mkObj _ (by decide +kernel) _ fun j hj => ?_
  simp only [List.mem_cons, List.not_mem_nil, or_false] at hj
  rcases hj with h | h | h | h | h
  · exact distinct_texts id _ j h.symm
  · exact distinct_texts id _ j h.symm
  · exact distinct_texts id _ j h.symm
  · exact distinct_texts _ _ j h.symm
  · exact distinct_orNone (distinct_strs _) j h.symm

private theorem distinct_docref (r : ExternalDocumentRef) : C22.Distinct (externalDocumentRefToJson r) := by
  refine distinct_mkObj _ (by decide +kernel) _ fun j hj => ?_
  simp only [List.mem_cons, List.not_mem_nil, or_false, Option.some.injEq] at hj
  rcases hj with rfl | rfl | rfl
  · exact True.intro
  · exact True.intro
  · exact distinct_checksum _

/-- The tree of a document is a dict in which no dict repeats a key. -/
theorem document_distinct (L : LicText) (d : Document) (j : Json) (h : documentToJson L d = some j) : ∃ o, j = .obj o ∧ C22.Distinct j := by
  unfold documentToJson at h
  simp only [bind, Option.bind, pure] at h
  cases h1 : (d.annotations.filter (fun a => a.spdxId ∉ containedIds d)).mapM annotationToJson with
  | none => rw [h1] at h; cases h
  | some as =>
  cases h2 : creationInfoToJson d.creationInfo with
  | none => rw [h1, h2] at h; cases h
  | some ci =>
  cases h3 : d.packages.mapM (packageToJson L d) with
  | none => rw [h1, h2, h3] at h; cases h
  | some ps =>
  cases h4 : d.files.mapM (fileToJson L d) with
  | none => rw [h1, h2, h3, h4] at h; cases h
  | some fs =>
  cases h5 : d.snippets.mapM (snippetToJson L d) with
  | none => rw [h1, h2, h3, h4, h5] at h; cases h
  | some ss =>
  rw [h1, h2, h3, h4, h5] at h
  cases h
  refine ⟨_, rfl, distinct_mkObj _ (by decide +kernel) _ fun j hj => ?_⟩
  simp only [List.mem_cons, List.not_mem_nil, or_false, Option.some.injEq] at hj
  rcases hj with rfl | h | h | rfl | rfl | h | h | rfl | rfl | rfl | h | h | h | h
  · exact True.intro
  · exact distinct_orNone (mapM_all distinct_annotation _ _ h1) j h.symm
  · exact distinct_texts id _ j h.symm
  · exact distinct_info _ _ h2
  · exact True.intro
  · refine distinct_orNone ?_ j h.symm
    intro j hj; obtain ⟨c, _, rfl⟩ := List.mem_map.1 hj; exact distinct_docref c
  · refine distinct_orNone ?_ j h.symm
    intro j hj; obtain ⟨c, _, rfl⟩ := List.mem_map.1 hj; exact distinct_extracted c
  · exact True.intro
  · exact True.intro
  · exact True.intro
  · exact distinct_orNone (mapM_all (distinct_package L d) _ _ h3) j h.symm
  · exact distinct_orNone (mapM_all (distinct_file L d) _ _ h4) j h.symm
  · exact distinct_orNone (mapM_all (distinct_snippet L d) _ _ h5) j h.symm
  · refine distinct_orNone ?_ j h.symm
    intro j hj; obtain ⟨c, _, rfl⟩ := List.mem_map.1 hj; exact distinct_relationship c

/-! #### Files -/

/-- What is read from the written file is the tree of the document without backspaces and form feeds in its texts. -/
theorem reads_stripped (L : LicText) (d : Document) (j : Json) (h : documentToJson L d = some j) :
    writeJsonText L d = some (dumpJson 4 0 j) ∧ parseJsonFile L (dumpJson 4 0 j) = .parsed (parseDocument L (C22.strip j)) := by
  refine ⟨by rw [writeJsonText, h]; rfl, ?_⟩
  obtain ⟨o, rfl, hd⟩ := document_distinct L d j h
  unfold parseJsonFile
  rw [written_newlines, (accepts_iff _ _).2 (written_is_json 4 _)]
  dsimp only
  rw [toJson_raw]
  dsimp only
  rw [C22.reads_stripped o hd]

/-- Writing a document as a JSON file and reading the file gives the document, with the annotations in the order of their elements. -/
theorem file_round_trip (L : LicText) (d : Document) (h : JsonOk L d) (hc : NoControl L d) :
    ∃ text, writeJsonText L d = some text ∧ parseJsonFile L text = .parsed (.ok { d with annotations := regroup d }) := by
  obtain ⟨j, h1, h2⟩ := C23.round_trip L d h
  obtain ⟨h3, h4⟩ := reads_stripped L d j h1
  refine ⟨_, h3, ?_⟩
  obtain ⟨o, rfl, hd⟩ := document_distinct L d j h1
  rw [h4, ← C22.reads_stripped o hd, C22.clean_unchanged o hd (hc _ h1), h2]

/-- With the program's own JSON serializer and parser nothing has to be assumed about a library. -/
theorem delivers (E : CliEnv) (R : RdfEnv) (b : Bindings) (d : Document) (hE : JsonProgram E) (hc : NoControl E.lic d) :
    C59.Delivers E R b d .JSON := by
  intro j hj
  refine ⟨by rw [hE.dump], fun e he => ?_⟩
  rw [hE.dump]
  refine hE.parse _ _ ?_
  obtain ⟨_, h4⟩ := reads_stripped E.lic d j hj
  obtain ⟨o, rfl, hd⟩ := document_distinct E.lic d j hj
  dsimp only
  rw [h4, ← C22.reads_stripped o hd, C22.clean_unchanged o hd (hc _ hj), he]

/-- Converting a file to JSON on the command line: the new file is read as the same document, with the same verdict. -/
theorem convert (E : CliEnv) (R : RdfEnv) (b : Bindings) (hJ : JsonProgram E) (hX : Unordered E.ext) (hE : C17.LicEqOk E.ext) (a : CliArgs)
    (w : World) (d : Document) (name : Str) (ha : a.outfile = some name) (hg : a.graph = false) (hr : C42.Reads E w a.infile d)
    (hp : C42.Passes E a d) (hn : fileNameToFormat name = .ok .JSON) (ho : E.openFails name = none)
    (hf : JsonOk E.lic (dedupDocument E.ext d)) (hc : NoControl E.lic (dedupDocument E.ext d)) :
    ∃ w' e, cliMain E a w = (0, w') ∧ C42.Reads E w' name e ∧
      e = { dedupDocument E.ext d with annotations := regroup (dedupDocument E.ext d) } ∧ C58.SameVerdict E.ext d e := by
  obtain ⟨w', e, h1, h2, h3, h4, _⟩ := C59.convert E R b hX hE a w d name .JSON ha hg hr hp hn ho hf (delivers E R b _ hJ hc)
  exact ⟨w', e, h1, h2, h3, h4⟩

/-- The migration command, with `json.dump(..., indent=2)`, exits with 0 and writes a JSON text of the context and the graph. -/
theorem migrated_file (E : Cli3Env) (hE : ∀ j, E.dumpJsonLd j = { text := dumpJson 2 0 j }) (a : CliArgs3) (w : World) (d : Document) (name : Str)
    (hr : C42.Reads E.toCliEnv w a.infile d) (hp : C54.Passes3 E a d) (ho : a.outfile = some name) (h1 : name ≠ []) (h2 : name ≠ s%"-")
    (hm : C54.Migratable d) (hd : C54.Datable d) (hopen : E.openFails (name ++ s%".jsonld") = none) :
    ∃ p w' text, bumpDocument d = .ok p ∧ cliMain3 E a w = (0, w') ∧ w'.files (name ++ s%".jsonld") = some text ∧
      JsonText (C54.file E p).raw text := by
  obtain ⟨p, hb, hc⟩ := C54.file_written E a w d name hr hp ho h1 h2 hm hd hopen
  rw [hE] at hc
  exact ⟨p, _, dumpJson 2 0 (C54.file E p), hb, hc, by simp [World.put], written_is_json 2 _⟩

/-- A backspace is lost: the full round trip does not hold for every document (see C22). -/
theorem backspace_lost : (loadText (dumpJson 4 0 (.obj [(s%"a", .str s%"x\x08y")]))).bind (fun r => r.toJson.map loadJson) =
    some (.obj [(s%"a", .str s%"xy")]) := by decide +kernel

/-! ### Non-vacuity -/

private def sample : Json := .obj [(s%"ä\"", .arr [.num (-120), .str s%"😀\n\\", .bool true, .arr [], .obj []]), (s%"b", .null)]
example : dumpJson 4 0 sample =
    s%"{\n    \"\\u00e4\\\"\": [\n        -120,\n        \"\\ud83d\\ude00\\n\\\\\",\n        true,\n        [],\n        {}\n    ],\n    \"b\": null\n}" := by
  decide +kernel
example : (loadText s%" { \"a\" : [ 1.5e+3 , -0, \"\\u00E9\\/\" ] } \r\n") =
    some (.obj [([97], .arr [.float s%"1.5e+3", .num 0, .str [233, 47]])]) := by rfl
/-- not JSON: a trailing comma, a leading zero, a raw line feed in a string, two values -/
example : ([s%"[1,]", s%"01", s%"\"\n\"", s%"1 2", s%"", s%"{\"a\":}", s%"1."].map fun s => (loadText s).isSome) =
    [false, false, false, false, false, false, false] := by decide +kernel
example : (documentToJson C23.exampleLic Example.doc).isSome = true := by decide +kernel
private theorem example_noControl : NoControl C23.exampleLic Example.doc := by
  intro j hj
  have hs : ((documentToJson C23.exampleLic Example.doc).map fun j => decide (C22.strip j = j)) = some true := by decide +kernel
  rw [hj] at hs
  have hs : C22.strip j = j := of_decide_eq_true (Option.some.inj hs)
  obtain ⟨o, rfl, hd⟩ := document_distinct _ _ _ hj
  have := C22.result_clean_distinct o hd
  rwa [C22.reads_stripped o hd, hs] at this

example : ∃ text, writeJsonText C23.exampleLic Example.doc = some text ∧
    parseJsonFile C23.exampleLic text = .parsed (.ok { Example.doc with annotations := regroup Example.doc }) :=
  file_round_trip _ _ C23.example_ok example_noControl

/-- A command with the program's serializer and parser of JSON. -/
private def env : CliEnv :=
  { C59.env with
    dump := { C59.env.dump with json := fun j => { text := dumpJson 4 0 j } }
    parse := fun fmt t => match fmt with
      | .JSON => match parseJsonFile C59.env.lic t with
        | .parsed (.ok d) => .ok d
        | .parsed (.error _) => .error .parsing
        | .malformed => .error (.malformed .JSON)
        | .beyond => .error (.other s%"unmodelled")
      | _ => C59.env.parse fmt t }
private theorem env_program : JsonProgram env where
  dump _ := rfl
  parse text e h := by
    have h' : parseJsonFile C59.env.lic text = .parsed (.ok e) := h
    simp only [env, h']
/-- From YAML to JSON. -/
example : ∃ w' e, cliMain env { infile := s%"a.yaml", outfile := some s%"b.json" } { files := fun n => if n = s%"a.yaml" then some s%"Y" else none } = (0, w') ∧
    C42.Reads env w' s%"b.json" e ∧ C58.SameVerdict env.ext Example.doc e := by
  have hd : dedupDocument env.ext Example.doc = Example.doc := C59.example_dedup
  obtain ⟨w', e, h1, h2, _, h4⟩ := convert env C49.exampleEnv [] env_program C58.example_unordered C59.example_licEq
    { infile := s%"a.yaml", outfile := some s%"b.json" } { files := fun n => if n = s%"a.yaml" then some s%"Y" else none } Example.doc s%"b.json" rfl rfl
    ⟨.YAML, s%"Y", by decide +kernel, by decide +kernel, rfl⟩ (.inr ⟨C59.example_valid, .inl rfl⟩) (by decide) rfl
    (by rw [hd]; exact C23.example_ok) (by rw [hd]; exact example_noControl)
  exact ⟨w', e, h1, h2, h4⟩

end Spdx.C63
