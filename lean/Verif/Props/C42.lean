import Verif.Model.Cli
import Verif.Props.C26
/-
C42: the command exits with status 0 only when the input parsed, and, unless validation is disabled, validated without messages, and any
requested output was produced; otherwise it exits with 1.
-/
namespace Spdx.C42
open Spdx

/-! Specification -/

/-- The input is a document: the file exists, its name has a known ending and the parser for it accepts the content. -/
def Reads (E : CliEnv) (w : World) (name : Str) (d : Document) : Prop :=
  ∃ fmt content, fileNameToFormat name = .ok fmt ∧ w.files name = some content ∧ E.parse fmt content = .ok d

/-- The validation asked for finds nothing: the document is valid and, if a version is named, it is the document's. -/
def Passes (E : CliEnv) (a : CliArgs) (d : Document) : Prop :=
  a.novalidation = true ∨
    (Spec.Valid E.ext d ∧ (a.version = none ∨ a.version = some [] ∨ a.version = some d.creationInfo.spdxVersion))

/-- The output asked for is produced without exception, leading to the world `w'`. -/
def Produces (E : CliEnv) (a : CliArgs) (d : Document) (w w' : World) : Prop :=
  match a.outfile, a.graph with
  | some ['-'], _ =>
    (writeTagValue E.lic d).raises = false ∧ w' = { w with stdout := w.stdout ++ (writeTagValue E.lic d).text }
  | out, true => E.exportGraph d out w = (w', none)
  | none, false | some [], false => w' = w
  | some name, false =>
    ∃ fmt, fileNameToFormat name = .ok fmt ∧ E.openFails name = none ∧
      (serialize E.toWriteEnv fmt (dedupDocument E.ext d)).raised = none ∧
      w' = w.put name (serialize E.toWriteEnv fmt (dedupDocument E.ext d)).text

/-! Lemmas -/

protected theorem reads_iff (E : CliEnv) (w : World) (name : Str) (d : Document) : parseFileAny E name w = .ok d ↔ Reads E w name d := by
  unfold parseFileAny Reads
  cases fileNameToFormat name with
  | error e => simp
  | ok fmt => cases w.files name <;> simp

protected theorem passes_iff (E : CliEnv) (a : CliArgs) (d : Document) : cliValidation E a d = none ↔ Passes E a d := by
  unfold cliValidation Passes
  cases a.novalidation with
  | true => simp
  | false =>
    simp only [Bool.false_eq_true, if_false, false_or]
    -- the version used, and what validating with it means
    have key : ∀ v : Str, v ≠ [] → ((if ¬ [v22, v23].contains v then some (Exc.other s%"SystemExit")
        else match validateDocument E.ext d (some v) with | [] => none | ms => some (.invalidDocument ms)) = none ↔
          Spec.Valid E.ext d ∧ v = d.creationInfo.spdxVersion) := by
      intro v hv
      have hval := C47.valid_iff E.ext d (some v)
      have hval' : validateDocument E.ext d (some v) = [] ↔ Spec.Valid E.ext d ∧ v = d.creationInfo.spdxVersion := by
        rw [hval]; simp [hv]
      split
      · rename_i hc
        constructor
        · intro h; cases h
        · rintro ⟨h1, h2⟩
          subst h2
          have := h1.version
          exact absurd this (by simpa [v22, v23] using hc)
      · rw [← hval']
        cases validateDocument E.ext d (some v) <;> simp
    have vne : Spec.Valid E.ext d → d.creationInfo.spdxVersion ≠ [] := by
      intro h e
      have := h.version
      rw [e] at this
      simp at this
    have own : ((if ¬ [v22, v23].contains d.creationInfo.spdxVersion then some (Exc.other s%"SystemExit")
        else match validateDocument E.ext d (some d.creationInfo.spdxVersion) with | [] => none | ms => some (.invalidDocument ms)) = none ↔
          Spec.Valid E.ext d) := by
      by_cases he : d.creationInfo.spdxVersion = []
      · rw [he]
        refine ⟨fun h => by simp [v22, v23] at h, fun h => absurd he (vne h)⟩
      · rw [key _ he]; simp
    cases hv : a.version with
    | none => simp only [true_or, and_true]; exact own
    | some v =>
      by_cases he : v = []
      · subst he; simp only [if_true, true_or, or_true, and_true]; exact own
      · simp only [he, if_false]
        refine (key v he).trans ?_
        simp [he]

private theorem put_ok (E : CliEnv) (d : Document) (name : Str) (w w' : World) :
    writeFileAny E.toWriteEnv E.openFails d name false w = (w', none) ↔
      ∃ fmt, fileNameToFormat name = .ok fmt ∧ E.openFails name = none ∧
        (serialize E.toWriteEnv fmt (dedupDocument E.ext d)).raised = none ∧
        w' = w.put name (serialize E.toWriteEnv fmt (dedupDocument E.ext d)).text := by
  unfold writeFileAny
  cases hn : fileNameToFormat name with
  | error e => simp
  | ok fmt =>
    simp only [writeToFile]
    cases ho : E.openFails name with
    | some e => simp
    | none =>
      have := C26.written E.toWriteEnv fmt d false true (by simp)
      simp only [this, Prod.mk.injEq, Except.ok.injEq, exists_eq_left', true_and]
      exact ⟨fun ⟨a, b⟩ => ⟨b, a.symm⟩, fun ⟨a, b⟩ => ⟨b.symm, a⟩⟩

protected theorem produces_iff (E : CliEnv) (a : CliArgs) (d : Document) (w w' : World) :
    cliOutput E a d w = (w', none) ↔ Produces E a d w w' := by
  unfold cliOutput Produces
  by_cases h1 : a.outfile = some s%"-"
  · rw [if_pos h1, h1]
    simp only [serialize, Prod.mk.injEq]
    cases (writeTagValue E.lic d).raises <;> simp [eq_comm]
  · rw [if_neg h1]
    cases hg : a.graph with
    | true =>
      cases ho : a.outfile with
      | none => simp
      | some name =>
        rw [if_pos rfl]
        split
        · rename_i h; cases h; exact absurd ho h1
        · rfl
        · simp_all
        · simp_all
        · simp_all
    | false =>
      cases ho : a.outfile with
      | none => simp [eq_comm]
      | some name =>
        simp only [Bool.false_eq_true, if_false]
        by_cases he : name = []
        · subst he; simp [eq_comm]
        · rw [if_neg he, put_ok]
          split
          · rename_i h; cases h; exact absurd ho h1
          · rename_i h _; cases h
          · rename_i h _; cases h
          · rename_i h _; exact absurd (Option.some.inj h) he
          · rename_i h _; cases h; rfl

/-! Theorems -/

/-- The status is 0 exactly when the input is a document that passes the validation asked for and the output asked for was produced; the
    files and the standard output are then changed by that output only. -/
theorem status_zero_iff (E : CliEnv) (a : CliArgs) (w w' : World) :
    cliMain E a w = (0, w') ↔ ∃ d, Reads E w a.infile d ∧ Passes E a d ∧ Produces E a d w w' := by
  unfold cliMain
  constructor
  · intro h
    cases hp : parseFileAny E a.infile w with
    | error e => rw [hp] at h; simp at h
    | ok d =>
      rw [hp] at h
      simp only at h
      cases hv : cliValidation E a d with
      | some e => rw [hv] at h; simp at h
      | none =>
        rw [hv] at h
        simp only at h
        match ho : cliOutput E a d w with
        | (w'', some e) => rw [ho] at h; simp at h
        | (w'', none) =>
          rw [ho] at h
          cases h
          exact ⟨d, (C42.reads_iff ..).mp hp, (C42.passes_iff ..).mp hv, (C42.produces_iff ..).mp ho⟩
  · rintro ⟨d, hr, hp, ho⟩
    rw [(C42.reads_iff ..).mpr hr]
    simp only
    rw [(C42.passes_iff ..).mpr hp]
    simp only
    rw [(C42.produces_iff ..).mpr ho]

/-- The only other status is 1. -/
theorem status_zero_or_one (E : CliEnv) (a : CliArgs) (w : World) : (cliMain E a w).1 = 0 ∨ (cliMain E a w).1 = 1 := by
  unfold cliMain
  cases parseFileAny E a.infile w with
  | error e => exact .inr rfl
  | ok d =>
    simp only
    cases cliValidation E a d with
    | some e => exact .inr rfl
    | none =>
      simp only
      match cliOutput E a d w with
      | (w', none) => exact .inl rfl
      | (w', some e) => exact .inr rfl

/-- If the input is no document, or fails the validation, nothing is written at all. -/
theorem rejected_untouched (E : CliEnv) (a : CliArgs) (w : World) (h : ∀ d, Reads E w a.infile d → ¬ Passes E a d) :
    cliMain E a w = (1, w) := by
  unfold cliMain
  cases hp : parseFileAny E a.infile w with
  | error e => rfl
  | ok d =>
    simp only
    cases hv : cliValidation E a d with
    | some e => rfl
    | none => exact absurd ((C42.passes_iff ..).mp hv) (h d ((C42.reads_iff ..).mp hp))

/-- Without an output option the command changes nothing. -/
theorem validate_only_untouched (E : CliEnv) (a : CliArgs) (w : World) (h : a.outfile = none ∨ a.outfile = some []) (hg : a.graph = false) :
    (cliMain E a w).2 = w := by
  unfold cliMain
  cases parseFileAny E a.infile w with
  | error e => rfl
  | ok d =>
    simp only
    cases cliValidation E a d with
    | some e => rfl
    | none =>
      have : cliOutput E a d w = (w, none) := by
        unfold cliOutput
        rcases h with h | h <;> simp [h, hg]
      simp only [this]

/-! Cases -/

/-- A command whose parser accepts one text. -/
def env : CliEnv :=
  { C26.env with
    parse := fun _ c => if c = s%"good" then .ok Example.doc else if c = s%"invalid" then .ok C26.invalid else .error .parsing
    openFails := fun _ => none
    exportGraph := fun _ _ w => (w, some .importError) }

def world : World := { files := fun n => if n = s%"a.json" then some s%"good" else if n = s%"b.json" then some s%"invalid" else none }

example : (cliMain env { infile := s%"a.json", outfile := some s%"o.yaml" } world).1 = 0 ∧
    (cliMain env { infile := s%"a.json", outfile := some s%"o.yaml" } world).2.files s%"o.yaml" = some s%"a" := by decide +kernel
example : (cliMain env { infile := s%"b.json" } world).1 = 1 := by decide +kernel
example : (cliMain env { infile := s%"b.json", novalidation := true } world).1 = 0 := by decide +kernel
example : (cliMain env { infile := s%"a.json", version := some s%"SPDX-2.2" } world).1 = 1 := by decide +kernel
example : (cliMain env { infile := s%"a.json", graph := true, outfile := some s%"g.png" } world).1 = 1 := by decide +kernel
example : (cliMain env { infile := s%"missing.json" } world).1 = 1 := by decide +kernel
example : Reads env world s%"a.json" Example.doc := ⟨.JSON, s%"good", by decide +kernel, by decide +kernel, by decide +kernel⟩

end Spdx.C42
