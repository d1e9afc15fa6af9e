import Verif.Model.Cli3
import Verif.Lemmas.BumpDates
import Verif.Lemmas.LdMigrated
import Verif.Props.C32
import Verif.Props.C42
import Verif.Props.C53
/-
C54: the migration command reads, validates and converts: status 0 exactly when all steps asked for succeed; the only file changed is the
output file, which is a JSON-LD document with one object per element of the migrated document; nothing is written when a step before the
writing fails.
-/
namespace Spdx.C54
open Spdx Spec C42

/-! ### Specification -/

/-- The validation asked for finds nothing. -/
def Passes3 (E : Cli3Env) (a : CliArgs3) (d : Document) : Prop :=
  a.novalidation = true ∨ (Valid E.ext d ∧ (a.version = [] ∨ a.version = d.creationInfo.spdxVersion))

/-- The document can be migrated: its identifiers can be made into URIs, and homepages are texts. -/
def Migratable (d : Document) : Prop :=
  (∀ x ∈ C32.fullIds d, ∃ k, x = .ok k) ∧ ∀ x ∈ d.packages, x.homepage ≠ some .none ∧ x.homepage ≠ some .noAssertion

/-- Its dates have a text in UTC. -/
def Datable (d : Document) : Prop := ∀ t ∈ BumpDates.docDates d, ∃ s, datetimeToIso t = some s

/-- What the migration prints: a line for every package whose download location is NONE. -/
def remarks (d : Document) : Str :=
  (d.packages.filter fun p => decide (p.downloadLocation = .none)).flatMap fun _ => s%"package.download_location: Missing conversion for SpdxNone.\n"

/-- The content of the file: the context and one object per element. -/
def file (E : Cli3Env) (p : Payload) : Json := .obj [(s%"@context", E.context), (s%"@graph", .arr (p.vals.map Spec.Ld.element))]

/-- The text of a payload on the console. -/
def console (p : Payload) : Str :=
  (p.vals.flatMap fun e => Spec.block (C53.entry e).1 (C53.entry e).2 (attrsOf e.toPy)).flatMap ConsoleItem.render

/-! ### Lemmas -/

private theorem reads_iff (E : CliEnv) (w : World) (name : Str) (d : Document) : parseFileAny E name w = .ok d ↔ Reads E w name d := by
  unfold parseFileAny Reads
  cases fileNameToFormat name with
  | error e => simp
  | ok fmt => cases w.files name <;> simp

private theorem passes_iff (E : Cli3Env) (a : CliArgs3) (d : Document) :
    (a.novalidation = false ∧ validateDocument E.ext d (some a.version) ≠ []) ↔ ¬ Passes3 E a d := by
  unfold Passes3
  rw [Ne, C47.valid_iff]
  cases a.novalidation <;> simp

private theorem main_ok (E : Cli3Env) (a : CliArgs3) (w : World) (d : Document) (hr : Reads E.toCliEnv w a.infile d) (hp : Passes3 E a d) :
    cliMain3 E a w = match cliOutput3 E a d w with
      | (w', true) => (0, w')
      | (w', false) => (1, w') := by
  unfold cliMain3
  rw [(reads_iff ..).2 hr]
  simp only
  rw [if_neg (fun h => (passes_iff E a d).1 h hp)]
  rfl

private theorem printed (d : Document) (h : Migratable d) :
    bumpPrinted d.creationInfo.documentNamespace d.creationInfo.externalDocumentRefs d.packages = remarks d := by
  have hid : ∀ p ∈ d.packages, ∃ k, getFullElementId p.spdxId d.creationInfo.documentNamespace d.creationInfo.externalDocumentRefs = .ok k := by
    intro p hp
    refine h.1 _ (List.mem_map.2 ⟨p.spdxId, ?_, rfl⟩)
    simp only [C32.elementIds, List.mem_append, List.mem_map]
    exact .inl (.inl ⟨p, hp, rfl⟩)
  have hh := h.2
  unfold remarks
  generalize d.packages = ps at hid hh
  induction ps with
  | nil => rfl
  | cons p ps ih =>
    obtain ⟨k, hk⟩ := hid p (List.mem_cons_self ..)
    obtain ⟨h1, h2⟩ := hh p (List.mem_cons_self ..)
    have hb : ∃ q, bumpedPackage d.creationInfo.documentNamespace k p = .ok q := by
      unfold bumpedPackage
      split
      · exact absurd (by assumption) h1
      · exact absurd (by assumption) h2
      · exact ⟨_, rfl⟩
      · exact ⟨_, rfl⟩
    obtain ⟨q, hq⟩ := hb
    rw [bumpPrinted]
    simp only [hk, hq]
    rw [ih (fun p hp => hid p (List.mem_cons_of_mem _ hp)) (fun p hp => hh p (List.mem_cons_of_mem _ hp)), List.filter_cons]
    by_cases hd : p.downloadLocation = .none
    · rw [if_pos hd, if_pos (decide_eq_true hd), List.flatMap_cons]
      rfl
    · rw [if_neg hd, if_neg (by simpa using hd)]
      rfl

private theorem datable (d : Document) (p : Payload) (h : bumpDocument d = .ok p) (hd : Datable d) :
    ∀ e ∈ p.vals, ∀ t ∈ Spec.Ld.dates e, ∃ s, datetimeToIso t = some s := by
  intro e he t ht
  obtain ⟨q, hq, rfl⟩ := List.mem_map.1 he
  exact hd t (BumpDates.migrated d p h q hq t ht)

private theorem created_dates (e : Element3) : ∀ t ∈ C53.createdTimes e, t ∈ Spec.Ld.dates e := by
  intro t ht
  cases e <;> simp_all [C53.createdTimes, Spec.Ld.dates]

/-! ### Theorems -/

/-- Writing to a file: the migrated document exists, the remarks are printed, and the file with the extension holds what `json.dump` makes of
    the context and of one object per element of it, each as specified in `Spec/LdMigrated`. -/
theorem file_written (E : Cli3Env) (a : CliArgs3) (w : World) (d : Document) (name : Str) (hr : Reads E.toCliEnv w a.infile d)
    (hp : Passes3 E a d) (ho : a.outfile = some name) (h1 : name ≠ []) (h2 : name ≠ s%"-") (hm : Migratable d) (hd : Datable d)
    (hopen : E.openFails (name ++ s%".jsonld") = none) :
    ∃ p, bumpDocument d = .ok p ∧
      cliMain3 E a w = (if (E.dumpJsonLd (file E p)).raised = none then 0 else 1,
        (w.print (remarks d)).put (name ++ s%".jsonld") (E.dumpJsonLd (file E p)).text) := by
  obtain ⟨p, hb⟩ := (C32.succeeds_iff d).2 hm
  refine ⟨p, hb, ?_⟩
  rw [main_ok E a w d hr hp]
  unfold cliOutput3
  rw [ho]
  simp only [if_neg h1, hb, if_neg h2, printed d hm, writePayload, LdMigrated.payload_eq _ (datable d p hb hd), hopen]
  unfold file
  cases (E.dumpJsonLd (.obj [(s%"@context", E.context), (s%"@graph", .arr (p.vals.map Spec.Ld.element))])).raised with
  | none => rfl
  | some e => rfl

/-- Writing to the console: the remarks and then one block per element of the migrated document. -/
theorem console_written (E : Cli3Env) (a : CliArgs3) (w : World) (d : Document) (hr : Reads E.toCliEnv w a.infile d)
    (hp : Passes3 E a d) (ho : a.outfile = some s%"-") (hm : Migratable d) (hd : Datable d) :
    ∃ p, bumpDocument d = .ok p ∧ cliMain3 E a w = (0, w.print (remarks d ++ console p)) := by
  obtain ⟨p, hb⟩ := (C32.succeeds_iff d).2 hm
  refine ⟨p, hb, ?_⟩
  obtain ⟨c1, c2⟩ := C53.migrated E.other p (fun e he t ht => datable d p hb hd e he t (created_dates e t ht))
  rw [main_ok E a w d hr hp]
  unfold cliOutput3
  rw [ho]
  simp only [if_neg (show s%"-" ≠ [] by decide), hb, printed d hm, c1, ConsoleSteps.text, c2]
  rw [if_pos trivial]
  show (0, _) = _
  simp only [World.print, List.append_assoc]
  rfl

/-- The status is 0 or 1. -/
theorem status_zero_or_one (E : Cli3Env) (a : CliArgs3) (w : World) : (cliMain3 E a w).1 = 0 ∨ (cliMain3 E a w).1 = 1 := by
  unfold cliMain3
  split
  · exact .inr rfl
  · split
    · exact .inr rfl
    · split
      · exact .inl rfl
      · exact .inr rfl

/-- If the input is no document, or fails the validation, nothing is written at all. -/
theorem rejected_untouched (E : Cli3Env) (a : CliArgs3) (w : World) (h : ∀ d, Reads E.toCliEnv w a.infile d → ¬ Passes3 E a d) :
    cliMain3 E a w = (1, w) := by
  unfold cliMain3
  cases hp : parseFileAny E.toCliEnv a.infile w with
  | error e => rfl
  | ok d => exact if_pos ((passes_iff E a d).2 (h d ((reads_iff ..).1 hp)))

/-- Without an output file the command only validates. -/
theorem validates (E : Cli3Env) (a : CliArgs3) (w : World) (ho : a.outfile = none ∨ a.outfile = some []) :
    (cliMain3 E a w).2 = w ∧ ((cliMain3 E a w).1 = 0 ↔ ∃ d, Reads E.toCliEnv w a.infile d ∧ Passes3 E a d) := by
  have hout : ∀ d, cliOutput3 E a d w = (w, true) := by
    intro d
    unfold cliOutput3
    rcases ho with ho | ho <;> rw [ho] <;> rfl
  by_cases h : ∃ d, Reads E.toCliEnv w a.infile d ∧ Passes3 E a d
  · obtain ⟨d, h1, h2⟩ := h
    rw [main_ok E a w d h1 h2, hout]
    exact ⟨rfl, fun _ => ⟨d, h1, h2⟩, fun _ => rfl⟩
  · rw [rejected_untouched E a w (fun d h1 h2 => h ⟨d, h1, h2⟩)]
    exact ⟨rfl, fun h0 => absurd h0 Nat.one_ne_zero, fun h0 => absurd h0 h⟩

/-- Files other than the output file with the extension are never changed, and none is when the output goes to the console. -/
theorem other_files (E : Cli3Env) (a : CliArgs3) (w : World) (n : Str)
    (h : ∀ name, a.outfile = some name → name ≠ s%"-" → n ≠ name ++ s%".jsonld") : (cliMain3 E a w).2.files n = w.files n := by
  have hout : ∀ d, (cliOutput3 E a d w).1.files n = w.files n := by
    intro d
    unfold cliOutput3
    cases ho : a.outfile with
    | none => rfl
    | some name =>
      simp only
      by_cases h1 : name = []
      · rw [if_pos h1]
      · rw [if_neg h1]
        cases bumpDocument d with
        | error e => rfl
        | ok p =>
          simp only
          by_cases h2 : name = s%"-"
          · rw [if_pos h2]; rfl
          · rw [if_neg h2]
            unfold writePayload
            cases payloadToJsonLd (p.vals.map Element3.toPy) with
            | error e => rfl
            | ok js =>
              simp only
              cases E.openFails (name ++ s%".jsonld") with
              | some e => rfl
              | none => exact if_neg (h name ho h2)
  unfold cliMain3
  split
  · rfl
  · split
    · rfl
    · split
      · rename_i d _ _ _ _ hq; have := hout d; rw [hq] at this; exact this
      · rename_i d _ _ _ _ hq; have := hout d; rw [hq] at this; exact this

/-- A document that cannot be migrated, or converted, leaves the output file as it was. -/
theorem failure_keeps_file (E : Cli3Env) (a : CliArgs3) (w : World) (d : Document) (hr : Reads E.toCliEnv w a.infile d)
    (hp : Passes3 E a d) (name : Str) (ho : a.outfile = some name) (h0 : name ≠ [])
    (h : ¬ Migratable d ∨ (name ≠ s%"-" ∧ ∃ p e, bumpDocument d = .ok p ∧ payloadToJsonLd (p.vals.map Element3.toPy) = .error e)) :
    (cliMain3 E a w).1 = 1 ∧ (cliMain3 E a w).2.files = w.files := by
  have hout : (cliOutput3 E a d w).2 = false ∧ (cliOutput3 E a d w).1.files = w.files := by
    unfold cliOutput3
    rw [ho]
    simp only [if_neg h0]
    cases hb : bumpDocument d with
    | error e => exact ⟨rfl, rfl⟩
    | ok p =>
      rcases h with h | ⟨h1, q, e, h2, h3⟩
      · exact absurd ((C32.succeeds_iff d).1 ⟨p, hb⟩) h
      · rw [hb] at h2
        cases h2
        simp only [if_neg h1, writePayload, h3]
        exact ⟨trivial, rfl⟩
  rw [main_ok E a w d hr hp]
  obtain ⟨h1, h2⟩ := hout
  generalize cliOutput3 E a d w = r at h1 h2
  obtain ⟨w', b⟩ := r
  cases h1
  exact ⟨rfl, h2⟩

/-- Status 0 means that the input is a document, passes the validation asked for, and, if there is an output file, could be migrated. -/
theorem zero_means (E : Cli3Env) (a : CliArgs3) (w : World) (h : (cliMain3 E a w).1 = 0) :
    ∃ d, Reads E.toCliEnv w a.infile d ∧ Passes3 E a d ∧ (∀ name, a.outfile = some name → name ≠ [] → Migratable d) := by
  by_cases hd : ∃ d, Reads E.toCliEnv w a.infile d ∧ Passes3 E a d
  · obtain ⟨d, h1, h2⟩ := hd
    refine ⟨d, h1, h2, ?_⟩
    intro name ho h0
    refine Classical.byContradiction fun hm => ?_
    have := (failure_keeps_file E a w d h1 h2 name ho h0 (.inl hm)).1
    rw [h] at this
    exact absurd this (by decide)
  · rw [rejected_untouched E a w (fun d h1 h2 => hd ⟨d, h1, h2⟩)] at h
    exact absurd h Nat.one_ne_zero

/-- Unlike the command for SPDX 2, this one compares the version with 2.3 if none is named: a valid SPDX 2.2 document is refused … -/
theorem default_refuses_old (E : Cli3Env) (a : CliArgs3) (w : World) (d : Document) (hr : Reads E.toCliEnv w a.infile d)
    (hv : d.creationInfo.spdxVersion = s%"SPDX-2.2") (ha : a.version = s%"SPDX-2.3") (hn : a.novalidation = false) :
    cliMain3 E a w = (1, w) := by
  refine rejected_untouched E a w ?_
  intro d' hr' hp
  have : d' = d := by
    have h1 := (reads_iff ..).2 hr
    rw [(reads_iff ..).2 hr'] at h1
    exact Except.ok.inj h1
  subst this
  rcases hp with h | ⟨_, h | h⟩
  · rw [hn] at h; cases h
  · rw [ha] at h; exact absurd h (by decide)
  · rw [ha, hv] at h; exact absurd h (by decide)

/-- … unless its version is given. -/
theorem named_version (E : Cli3Env) (a : CliArgs3) (d : Document) (h : Valid E.ext d) (ha : a.version = d.creationInfo.spdxVersion) :
    Passes3 E a d := .inr ⟨h, .inr ha⟩

/-! ### Examples -/

def env : Cli3Env := { C42.env with
  context := .obj [(s%"@vocab", .str s%"https://spdx.org/rdf/v3/")]
  dumpJsonLd := fun j => ⟨match j with | .obj [_, (_, .arr l)] => natStr l.length | _ => s%"?", none⟩
  other := fun _ => s%"?" }

example : Passes3 env { infile := s%"a.json" } Example.doc :=
  .inr ⟨((C47.valid_iff env.ext Example.doc (some s%"SPDX-2.3")).1 (by decide +kernel)).1, .inr (by decide +kernel)⟩
example : Reads env.toCliEnv C42.world s%"a.json" Example.doc := ⟨.JSON, s%"good", by decide +kernel, by decide +kernel, by decide +kernel⟩
example : Migratable Example.doc := by
  have h : (match bumpDocument Example.doc with | .ok _ => true | .error _ => false) = true := by decide +kernel
  refine (C32.succeeds_iff _).1 ?_
  cases hb : bumpDocument Example.doc with
  | ok p => exact ⟨p, rfl⟩
  | error e => rw [hb] at h; cases h
example : Datable Example.doc := by
  have h : ∀ t ∈ BumpDates.docDates Example.doc, (datetimeToIso t).isSome = true := by decide +kernel
  exact fun t ht => Option.isSome_iff_exists.1 (h t ht)
example : (cliMain3 env { infile := s%"a.json", outfile := some s%"o" } C42.world).1 = 0 ∧
    (cliMain3 env { infile := s%"a.json", outfile := some s%"o" } C42.world).2.files s%"o.jsonld" ≠ none := by decide +kernel
example : (cliMain3 env { infile := s%"a.json", outfile := some s%"-" } C42.world).1 = 0 ∧
    (cliMain3 env { infile := s%"a.json", outfile := some s%"-" } C42.world).2.stdout ≠ [] := by decide +kernel
example : (cliMain3 env { infile := s%"b.json" } C42.world).1 = 1 := by decide +kernel
example : (cliMain3 env { infile := s%"a.json", version := s%"SPDX-2.2" } C42.world).1 = 1 := by decide +kernel
/-- a document with a homepage NONE passes validation, but cannot be migrated -/
example : ¬ Migratable { Example.doc with packages := [{ Example.package with homepage := some .none }] } := by
  intro h
  exact (h.2 _ (List.mem_singleton.2 rfl)).1 rfl
/-- the remarks are printed -/
example : remarks { Example.doc with packages := [{ Example.package with downloadLocation := .none }] } =
    s%"package.download_location: Missing conversion for SpdxNone.\n" := by decide +kernel

end Spdx.C54
