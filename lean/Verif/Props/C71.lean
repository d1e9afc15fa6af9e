import Verif.Lemmas.ConvertedTexts
import Verif.Model.JsonText
import Verif.Props.C63
/-
C71 — Converting a document again and again, from any format to any other.

One conversion is C59.  Here the output of one command is the input of the next, any number of times, in any order of the formats and over
whatever files, old ones included.  Each format changes the order of some things, so that the next one starts from another document than the
first did; `Spec/Converted.lean` says which documents stay writable in every format whatever has happened to them, and what stays of them.
Everything stays, and so does the verdict of the validator; but the relationships grow: one that places a file in a package and has a comment
gets a further relationship without comment with every conversion to tag-value.
-/
namespace Spdx.C71
open Spdx Spec

/-! ### Specification -/

/-- The commands `pyspdxtools -i infile -o n₁`, `pyspdxtools -i n₁ -o n₂`, … one after the other, until one fails. The other options are
    those of `a`. The exit status is that of the last command. -/
def convertAll (E : CliEnv) (a : CliArgs) (infile : Str) : List Str → World → Nat × World
  | [], w => (0, w)
  | n :: ns, w =>
    match cliMain E { a with infile := infile, outfile := some n } w with
    | (0, w') => convertAll E a n ns w'
    | failed => failed

/-- The last of the files. -/
def lastName (infile : Str) : List Str → Str
  | [] => infile
  | n :: ns => lastName n ns

/-- How many of the names are those of tag-value files. -/
def tagValues (names : List Str) : Nat := names.countP fun n => decide (fileNameToFormat n = .ok .TAG_VALUE)

/-- The file can be written, and the library of its format works for every document that all formats can hold. -/
def Works (E : CliEnv) (R : RdfEnv) (b : Bindings) (name : Str) : Prop :=
  E.openFails name = none ∧ ∃ fmt, fileNameToFormat name = .ok fmt ∧ ∀ x, Portable E.ext R b x → C59.Delivers E R b x fmt

/-- How many relationships place a file in a package and have a comment. -/
def remarks (d : Document) : Nat := d.relationships.countP fun r => decide (C27.packagedIds d r ≠ none ∧ ¬ NoComment r)

/-! ### Theorems -/

private theorem verdict_trans {X : Ext} {a b c : Document} (h1 : C58.SameVerdict X a b) (h2 : C58.SameVerdict X b c) : C58.SameVerdict X a c :=
  fun v => (h1 v).trans (h2 v)

/-- The validation asked for passes a document with the same verdict. -/
private theorem passes_same {E : CliEnv} {a : CliArgs} {d e : Document} (h : C58.SameVerdict E.ext d e) (hp : C42.Passes E a d) : C42.Passes E a e := by
  rcases hp with hp | ⟨hv, hp⟩
  · exact .inl hp
  · right
    exact (C47.valid_iff E.ext e a.version).1 ((h a.version).1 ((C47.valid_iff E.ext d a.version).2 ⟨hv, hp⟩))

private theorem tagValues_cons (n : Str) (ns : List Str) {fmt : FileFormat} (h : fileNameToFormat n = .ok fmt) :
    tagValues (n :: ns) = Converted.repeats fmt + tagValues ns := by
  unfold tagValues
  rw [List.countP_cons, h, Nat.add_comm]
  congr 1
  cases fmt <;> decide

variable {E : CliEnv} {R : RdfEnv} {b : Bindings}

/-- One command. -/
private theorem one (hX : Unordered E.ext) (hE : C17.LicEqOk E.ext) (hL : R.lic = E.lic) (a : CliArgs) (hg : a.graph = false)
    (w : World) (infile n : Str) (d : Document) (hr : C42.Reads E w infile d) (hp : C42.Passes E a d)
    (hd : Portable E.ext R b (dedupDocument E.ext d)) (hn : Works E R b n) :
    ∃ w' e, cliMain E { a with infile := infile, outfile := some n } w = (0, w') ∧ C42.Reads E w' n e ∧
      Conveys (tagValues [n]) (dedupDocument E.ext d) e ∧ C58.SameVerdict E.ext d e ∧
      (∀ other, other ≠ n → w'.files other = w.files other) ∧ w'.stdout = w.stdout := by
  obtain ⟨ho, fmt, hf, hd'⟩ := hn
  obtain ⟨w', e, h1, h2, h3, h4, h5, h6⟩ := C59.convert E R b hX hE { a with infile := infile, outfile := some n } w d n fmt rfl hg hr hp hf ho
    (Converted.portable_fits hL hd fmt) (hd' _ hd)
  exact ⟨w', e, h1, h2, by rw [tagValues_cons n [] hf]; exact Converted.kept_conveys hd.rdf h3, h4, h5, h6⟩

private theorem later (hX : Unordered E.ext) (hE : C17.LicEqOk E.ext) (hS : LicEqUnordered E.ext) (hL : R.lic = E.lic) (a : CliArgs) (hg : a.graph = false) :
    ∀ (names : List Str) (w : World) (infile : Str) (d : Document), C42.Reads E w infile d → C42.Passes E a d → Portable E.ext R b d →
      (∀ n ∈ names, Works E R b n) →
      ∃ w' e, convertAll E a infile names w = (0, w') ∧ C42.Reads E w' (lastName infile names) e ∧ Conveys (tagValues names) d e ∧
        C58.SameVerdict E.ext d e ∧ (∀ other, other ∉ names → w'.files other = w.files other) ∧ w'.stdout = w.stdout
  | [], w, infile, d, hr, _, _, _ => ⟨w, d, rfl, hr, Converted.conveys_refl d, fun _ => .rfl, fun _ _ => rfl, rfl⟩
  | n :: ns, w, infile, d, hr, hp, hd, hn => by
    obtain ⟨w1, e1, h1, h2, h3, h4, h5, h6⟩ := one hX hE hL a hg w infile n d hr hp (by rw [hd.settled]; exact hd) (hn n (.head _))
    rw [hd.settled] at h3
    obtain ⟨w2, e2, k1, k2, k3, k4, k5, k6⟩ := later hX hE hS hL a hg ns w1 n e1 h2 (passes_same h4 hp) (Converted.portable_conveyed hS h3 hd)
      fun m hm => hn m (.tail _ hm)
    refine ⟨w2, e2, ?_, k2, ?_, verdict_trans h4 k4, fun o ho => ?_, k6.trans h6⟩
    · unfold convertAll
      rw [h1]
      exact k1
    · have := Converted.conveys_trans h3 k3
      obtain ⟨_, fmt, hf, _⟩ := hn n (.head _)
      rw [tagValues_cons n [] hf] at this
      rw [tagValues_cons n ns hf]
      exact this
    · simp only [List.mem_cons, not_or] at ho
      rw [k5 o ho.2, h5 o ho.1]

/-- Any number of conversions: every command succeeds, the last file holds the document, with the verdict that it had, and no other file than
    those named is touched. -/
theorem conversions (hX : Unordered E.ext) (hE : C17.LicEqOk E.ext) (hS : LicEqUnordered E.ext) (hL : R.lic = E.lic) (a : CliArgs) (hg : a.graph = false)
    (w : World) (infile : Str) (names : List Str) (d : Document) (hne : names ≠ []) (hr : C42.Reads E w infile d) (hp : C42.Passes E a d)
    (hd : Portable E.ext R b (dedupDocument E.ext d)) (hn : ∀ n ∈ names, Works E R b n) :
    ∃ w' e, convertAll E a infile names w = (0, w') ∧ C42.Reads E w' (lastName infile names) e ∧
      Conveys (tagValues names) (dedupDocument E.ext d) e ∧ C58.SameVerdict E.ext d e ∧
      (∀ other, other ∉ names → w'.files other = w.files other) ∧ w'.stdout = w.stdout := by
  match names, hne, hn with
  | n :: ns, _, hn =>
    obtain ⟨w1, e1, h1, h2, h3, h4, h5, h6⟩ := one hX hE hL a hg w infile n d hr hp hd (hn n (.head _))
    obtain ⟨w2, e2, k1, k2, k3, k4, k5, k6⟩ := later hX hE hS hL a hg ns w1 n e1 h2 (passes_same h4 hp) (Converted.portable_conveyed hS h3 hd)
      fun m hm => hn m (.tail _ hm)
    refine ⟨w2, e2, ?_, k2, ?_, verdict_trans h4 k4, fun o ho => ?_, k6.trans h6⟩
    · unfold convertAll
      rw [h1]
      exact k1
    · have := Converted.conveys_trans h3 k3
      obtain ⟨_, fmt, hf, _⟩ := hn n (.head _)
      rw [tagValues_cons n [] hf] at this
      rw [tagValues_cons n ns hf]
      exact this
    · simp only [List.mem_cons, not_or] at ho
      rw [k5 o ho.2, h5 o ho.1]

/-! ### The growth of the relationships -/

/-- The pairs of the relationships that satisfy a condition. -/
private def pairsOf (d : Document) (q : Relationship → Bool) (rs : List Relationship) : List (Str × Str) :=
  rs.filterMap fun r => if q r then C27.packagedIds d r else none

private theorem count_pairs (d : Document) (q : Relationship → Bool) (x : Str × Str) (rs : List Relationship) :
    (pairsOf d q rs).count x = rs.countP fun r => decide (C27.packagedIds d r = some x ∧ q r = true) := by
  induction rs with
  | nil => rfl
  | cons r rs ih =>
    unfold pairsOf at ih ⊢
    rw [List.countP_cons, List.filterMap_cons]
    cases hq : q r with
    | false => simp [ih]
    | true =>
      cases hp : C27.packagedIds d r with
      | none => simp [ih]
      | some y =>
        simp only [if_true, List.count_cons, ih]
        by_cases h : y = x <;> simp [h]

private theorem length_pairs (d : Document) (q : Relationship → Bool) (rs : List Relationship) :
    (pairsOf d q rs).length = rs.countP fun r => decide (C27.packagedIds d r ≠ none ∧ q r = true) := by
  induction rs with
  | nil => rfl
  | cons r rs ih =>
    unfold pairsOf at ih ⊢
    rw [List.countP_cons, List.filterMap_cons]
    cases hq : q r with
    | false => simp [ih]
    | true =>
      cases hp : C27.packagedIds d r with
      | none => simp [ih]
      | some y => simp [ih]

private abbrev silent (r : Relationship) : Bool := decide (NoComment r)

private theorem count_copies {α : Type} [BEq α] (x : α) (l : List α) (k : Nat) : (List.replicate k l).flatten.count x = k * l.count x := by
  induction k with
  | zero => simp
  | succ k ih => rw [List.replicate_succ, List.flatten_cons, List.count_append, ih, Nat.succ_mul, Nat.add_comm]

private theorem length_copies {α : Type} (l : List α) (k : Nat) : (List.replicate k l).flatten.length = k * l.length := by
  induction k with
  | zero => simp
  | succ k ih => rw [List.replicate_succ, List.flatten_cons, List.length_append, ih, Nat.succ_mul, Nat.add_comm]

/-- Exactly one more relationship for each commented one that places a file in a package and each time as tag-value. -/
theorem growth {k : Nat} {d e : Document} (h : Conveys k d e) : e.relationships.length = d.relationships.length + k * remarks d := by
  have split : ∀ x : Document, x.relationships.length = (x.relationships.filter (outright x)).length + (pairsOf x silent x.relationships).length := by
    intro x
    rw [length_pairs, ← List.countP_eq_length_filter, List.length_eq_countP_add_countP (outright x)]
    congr 1
    refine List.countP_congr fun r _ => ?_
    by_cases h1 : C27.packagedIds x r = none <;> by_cases h2 : NoComment r <;> simp [outright, h1, h2]
  have hp : (pairsOf e silent e.relationships).Perm
      (pairsOf d silent d.relationships ++ (List.replicate k (pairsOf d (fun r => !silent r) d.relationships)).flatten) := by
    rw [List.perm_iff_count]
    intro x
    have hx := h.placed x.1 x.2
    rw [List.count_append, count_copies, count_pairs, count_pairs, count_pairs]
    unfold placements remarked at hx
    simpa using hx
  rw [split e, split d, h.outright.length_eq, hp.length_eq, List.length_append, length_copies, length_pairs d (fun r => !silent r)]
  have : (d.relationships.countP fun r => decide (C27.packagedIds d r ≠ none ∧ (!silent r) = true)) = remarks d := by
    unfold remarks
    simp
  rw [this, Nat.add_assoc]

/-- After any number of conversions the last file has so many relationships. -/
theorem conversions_grow (hX : Unordered E.ext) (hE : C17.LicEqOk E.ext) (hS : LicEqUnordered E.ext) (hL : R.lic = E.lic) (a : CliArgs) (hg : a.graph = false)
    (w : World) (infile : Str) (names : List Str) (d : Document) (hne : names ≠ []) (hr : C42.Reads E w infile d) (hp : C42.Passes E a d)
    (hd : Portable E.ext R b (dedupDocument E.ext d)) (hn : ∀ n ∈ names, Works E R b n) :
    ∃ w' e, convertAll E a infile names w = (0, w') ∧ C42.Reads E w' (lastName infile names) e ∧
      e.relationships.length = d.relationships.length + tagValues names * remarks d := by
  obtain ⟨w', e, h1, h2, h3, _⟩ := conversions hX hE hS hL a hg w infile names d hne hr hp hd hn
  refine ⟨w', e, h1, h2, ?_⟩
  have hs : remarks (dedupDocument E.ext d) = remarks d := by
    unfold remarks
    refine congrArg (fun q => List.countP q d.relationships) (funext fun r => ?_)
    have : C27.packagedIds (dedupDocument E.ext d) r = C27.packagedIds d r := by
      unfold C27.packagedIds
      rw [show (dedupDocument E.ext d).packages.map (·.spdxId) = d.packages.map (·.spdxId) by simp [dedupDocument, Package.dedup, Function.comp_def],
        show (dedupDocument E.ext d).files.map (·.spdxId) = d.files.map (·.spdxId) by simp [dedupDocument, File.dedup, Function.comp_def]]
    rw [this]
  rw [← hs]
  exact growth h3

/-! ### Non-vacuity: libraries that work for every document, and a document with everything -/

/-- Triples as a JSON tree, and back. -/
def nodeTree : RdfNode → Json
  | .uri s => .arr [.num 0, .str s]
  | .bnode p => .arr (.num 1 :: p.map fun (n : Nat) => .num (n : Int))
  | .str s => .arr [.num 2, .str s]
  | .bool b => .arr [.num 3, .bool b]
  | .int i => .arr [.num 4, .num i]

def treeNumber : Json → Option Nat
  | .num i => some i.toNat
  | _ => none

def treeNode : Json → Option RdfNode
  | .arr [.num 0, .str s] => some (.uri s)
  | .arr [.num 2, .str s] => some (.str s)
  | .arr [.num 3, .bool b] => some (.bool b)
  | .arr [.num 4, .num i] => some (.int i)
  | .arr (.num 1 :: p) => (p.mapM treeNumber).map .bnode
  | _ => none

def tripleTree (t : Triple) : Json := .arr [nodeTree t.1, .num (t.2.1.ctorIdx : Int), nodeTree t.2.2]

def treeTriple : Json → Option Triple
  | .arr [s, .num p, o] => do return (← treeNode s, Pred.ofNat p.toNat, ← treeNode o)
  | _ => none

def graphTree (g : RdfGraph) : Json := .arr (g.map tripleTree)

def treeGraph : Json → Option RdfGraph
  | .arr l => l.mapM treeTriple
  | _ => none

private theorem mapM_map {α β : Type} {f : α → β} {g : β → Option α} (h : ∀ a, g (f a) = some a) (l : List α) : (l.map f).mapM g = some l := by
  induction l with
  | nil => rfl
  | cons a l ih => rw [List.map_cons, List.mapM_cons, h, ih]; rfl

private theorem node_back (n : RdfNode) : treeNode (nodeTree n) = some n := by
  cases n with
  | uri s => rfl
  | str s => rfl
  | bool b => rfl
  | int i => rfl
  | bnode p =>
    have h : (p.map fun (n : Nat) => Json.num (n : Int)).mapM treeNumber = some p := mapM_map (f := fun (n : Nat) => Json.num (n : Int)) (g := treeNumber) (fun _ => rfl) p
    unfold nodeTree treeNode
    simp only [h]
    rfl

private theorem triple_back (t : Triple) : treeTriple (tripleTree t) = some t := by
  obtain ⟨s, p, o⟩ := t
  unfold tripleTree treeTriple
  simp only [node_back]
  have : Pred.ofNat p.ctorIdx = p := by cases p <;> rfl
  simp [this]

private theorem graph_back (g : RdfGraph) : treeGraph (graphTree g) = some g := mapM_map triple_back g

/-- A license library for expressions of one or two symbols. -/
def lic : LicText where
  render
    | .sym s => s
    | .and [.sym a, .sym b] => a ++ s%" AND " ++ b
    | _ => s%"?"
  parse t := some (some (if t = s%"MIT AND LicenseRef-1" then .and [.sym s%"MIT", .sym s%"LicenseRef-1"]
    else if t = s%"LicenseRef-1 AND MIT" then .and [.sym s%"LicenseRef-1", .sym s%"MIT"] else .sym t))

open Classical in
/-- Expressions are equal if they differ only in the order of arguments. -/
noncomputable def ext : Ext := { Example.ext with licEq := fun a b => decide (SameLic a b) }

def rdf : RdfEnv := { C49.exampleEnv with lic := lic }

/-- What a reader makes of an outcome. -/
def finish : Py Document → Except Exc Document
  | .ok d => .ok d
  | .error _ => .error .parsing

def readJsonText (fmt : FileFormat) (t : Str) : Except Exc Document :=
  match (loadText t).bind Raw.toJson with
  | some j => finish (parseDocument lic j)
  | none => .error (.malformed fmt)

def readXmlText (t : Str) : Except Exc Document :=
  match (loadText t).bind Raw.toJson with
  | some (.obj [(_, j)]) => match readXml lic j with
    | some o => finish o
    | none => .error (.malformed .XML)
  | _ => .error (.malformed .XML)

def readTvText (t : Str) : Except Exc Document :=
  match parseTagValueFile lic t with
  | .ok d => .ok d
  | .error _ => .error .parsing

def readGraph (g : RdfGraph) : Except Exc Document :=
  match parseRdf rdf [] g.eraseDups with
  | some d => .ok d
  | none => .error .parsing

def readRdfText (t : Str) : Except Exc Document :=
  match ((loadText t).bind Raw.toJson).bind treeGraph with
  | some g => readGraph g
  | none => .error (.malformed .RDF_XML)

def writeRdfText (d : Document) : Output :=
  match rdfGraph rdf d with
  | some w => { text := dumpJson 2 0 (graphTree w) }
  | none => { text := [], raised := some .unrepresentable }

/-- The libraries for JSON as in `Model/JsonText`; YAML is written as JSON, which is YAML; XML is a JSON text of the tree, its parser is that of
    `Model/Xml`; the triples of a graph are a JSON text as well. -/
noncomputable def env : CliEnv :=
  { ext := ext, lic := lic
    dump :=
      { json := fun j => { text := dumpJson 2 0 j }
        yaml := fun j => { text := dumpJson 2 0 j }
        xml := fun j => { text := dumpJson 2 0 j }
        rdf := writeRdfText }
    parse := fun fmt t => match fmt with
      | .TAG_VALUE => readTvText t
      | .RDF_XML => readRdfText t
      | .XML => readXmlText t
      | fmt => readJsonText fmt t
    openFails := fun _ => none
    exportGraph := fun _ _ w => (w, some .importError) }

private theorem nodup_eraseDups {α : Type} [BEq α] [LawfulBEq α] (l : List α) : l.eraseDups.Nodup := by
  generalize hn : l.length = n
  induction n using Nat.strongRecOn generalizing l with
  | _ n ih =>
    cases l with
    | nil => simp
    | cons a l =>
      rw [List.eraseDups_cons, List.nodup_cons]
      refine ⟨by simp, ih _ ?_ _ rfl⟩
      rw [← hn]
      exact Nat.lt_succ_of_le (List.length_filter_le _ _)

private theorem env_lic : env.lic = lic := rfl
private theorem env_tv (t : Str) : env.parse .TAG_VALUE t = readTvText t := rfl
private theorem env_rdf (t : Str) : env.parse .RDF_XML t = readRdfText t := rfl
private theorem env_graph (d : Document) : env.dump.rdf d = writeRdfText d := rfl

/-- The libraries work for all documents. -/
protected theorem env_delivers (d : Document) (fmt : FileFormat) : C59.Delivers env rdf [] d fmt := by
  have json : ∀ j e, parseDocument lic j = .ok e → ∀ fmt, readJsonText fmt (dumpJson 2 0 j) = .ok e := fun j e he fmt => by
    unfold readJsonText
    rw [C63.read_written]
    simp only [he]
    rfl
  cases fmt with
  | JSON => exact fun j _ => ⟨rfl, fun e he => json j e he .JSON⟩
  | YAML => exact fun j _ => ⟨rfl, fun e he => json j e he .YAML⟩
  | XML =>
    refine fun j _ => ⟨rfl, fun e he => ?_⟩
    show readXmlText (dumpJson 2 0 (.obj [(s%"Document", j)])) = _
    unfold readXmlText
    rw [C63.read_written]
    have he : readXml lic j = some (.ok e) := he
    simp only [he]
    rfl
  | TAG_VALUE =>
    intro e he
    rw [env_tv]
    rw [env_lic] at he ⊢
    unfold readTvText
    rw [he]
  | RDF_XML =>
    intro w hw
    have ht : env.dump.rdf d = { text := dumpJson 2 0 (graphTree w) } := by
      rw [env_graph]
      unfold writeRdfText
      rw [hw]
    rw [ht]
    have hid : w.rename id = w := by
      unfold RdfGraph.rename
      refine (List.map_congr_left fun t _ => ?_).trans (List.map_id w)
      obtain ⟨s, p, o⟩ := t
      cases s <;> cases o <;> rfl
    refine ⟨rfl, id, w.eraseDups, fun _ _ h => h, ⟨nodup_eraseDups _, fun t => by rw [hid]; exact List.mem_eraseDups⟩, fun e he => ?_⟩
    rw [env_rdf]
    unfold readRdfText
    rw [C63.read_written, Option.bind_some, graph_back]
    unfold readGraph
    simp only [he]

protected theorem env_works (n : Str) (fmt : FileFormat) (h : fileNameToFormat n = .ok fmt) : Works env rdf [] n :=
  ⟨rfl, fmt, h, fun x _ => C71.env_delivers x fmt⟩

/-- The document of the other examples; the file is placed in the package twice, once with a comment. -/
def doc : Document :=
  { Example.doc with
    relationships := Example.doc.relationships ++
      [⟨s%"SPDXRef-File", .CONTAINED_BY, .val s%"SPDXRef-Package", some s%"why"⟩] }

private theorem forall_one {α : Type} {p : α → Prop} {a : α} (h : p a) : ∀ x ∈ [a], p x := by simpa using h
private theorem sym_anywhere {k : Str} (h1 : LicOk lic (.sym k)) (h2 : Plain k) (h3 : lic.parse k = some (some (.sym k))) (h4 : XmlText k) :
    LicAnywhere lic 5 (.sym k) := by
  intro m hm
  cases hm
  exact ⟨h1, h2, h3, show 1 ≤ 5 by decide, h4⟩

private theorem mit : LicAnywhere lic 5 (.sym s%"MIT") :=
  sym_anywhere (by unfold LicOk Unreserved; decide +kernel) (by decide +kernel) (by decide +kernel) (by decide +kernel)

private theorem both_rdf (a b : Str) (h : (a = s%"MIT" ∧ b = s%"LicenseRef-1") ∨ (a = s%"LicenseRef-1" ∧ b = s%"MIT")) :
    LicRdf lic (.and [.sym a, .sym b]) := by
  rcases h with ⟨rfl, rfl⟩ | ⟨rfl, rfl⟩ <;>
  · refine ⟨⟨by unfold LicRdf; decide +kernel, by unfold LicRdf; decide +kernel, trivial⟩, by decide, fun m hm => ?_⟩
    rcases C49.same_syms hm with rfl | rfl <;> decide +kernel

private theorem both : LicAnywhere lic 5 (.and [.sym s%"MIT", .sym s%"LicenseRef-1"]) := by
  intro m hm
  have : ∃ l, m = .and l := by cases hm; exact ⟨_, rfl⟩
  obtain ⟨l, rfl⟩ := this
  rcases C49.same_syms hm with rfl | rfl
  · exact ⟨by unfold LicOk Unreserved; decide +kernel, by decide +kernel, both_rdf _ _ (.inl ⟨rfl, rfl⟩), by decide +kernel, by decide +kernel⟩
  · exact ⟨by unfold LicOk Unreserved; decide +kernel, by decide +kernel, both_rdf _ _ (.inr ⟨rfl, rfl⟩), by decide +kernel, by decide +kernel⟩

private theorem doc_lics : AllLics (LicAnywhere lic 5) doc where
  packages := by
    intro p hp x hx
    rcases (by simpa [doc, Example.doc] using hp : p = Example.package ∨ p = Example.barePackage) with rfl | rfl
    · have : x = .sym s%"MIT" := by simpa [packageLics, Example.package] using hx
      rw [this]; exact mit
    · simp [packageLics, Example.barePackage] at hx
  files := forall_one fun x hx => by
    rcases (by simpa [fileLics, Example.file] using hx : x = .and [.sym s%"MIT", .sym s%"LicenseRef-1"] ∨ x = .sym s%"MIT") with rfl | rfl
    · exact both
    · exact mit
  snippets := forall_one fun x hx => by simp [snippetLics, Example.snippet] at hx

private theorem any_ok {x : LicExpr} (h : LicAnywhere lic 5 x) : LicOk lic x := (h x (Converted.sameLic_refl x)).1
private theorem any_tv {x : LicExpr} (h : LicAnywhere lic 5 x) : LicTv lic (.val x) := fun y hy => by
  cases hy; exact ⟨(h x (Converted.sameLic_refl x)).2.1, (any_ok h).1⟩
private theorem any_rdf {x : LicExpr} (h : LicAnywhere lic 5 x) : LicOrRdf rdf (.val x) := fun y hy => by
  cases hy; exact ⟨(h x (Converted.sameLic_refl x)).2.2.1, (h x (Converted.sameLic_refl x)).2.2.2.1⟩

private theorem doc_json : JsonOk lic doc :=
  have h := C23.example_ok
  { h with
    packages := fun p hp => by
      have hl := doc_lics.packages p hp
      unfold packageLics at hl
      simp only [List.mem_append, Option.mem_toList] at hl
      exact { h.packages p hp with
        concluded := fun x hx => any_ok (hl x (.inl (.inl hx)))
        declared := fun x hx => any_ok (hl x (.inl (.inr hx)))
        info := fun x hx => any_ok (hl x (.inr hx)) }
    files := fun f hf => by
      have hl := doc_lics.files f hf
      unfold fileLics at hl
      simp only [List.mem_append, Option.mem_toList] at hl
      exact { h.files f hf with
        concluded := fun x hx => any_ok (hl x (.inl hx))
        info := fun x hx => any_ok (hl x (.inr hx)) }
    snippets := fun f hf => by
      have hl := doc_lics.snippets f hf
      unfold snippetLics at hl
      simp only [List.mem_append, Option.mem_toList] at hl
      exact { h.snippets f hf with
        concluded := fun x hx => any_ok (hl x (.inl hx))
        info := fun x hx => any_ok (hl x (.inr hx)) }
    relationships := fun r hr => by
      rcases List.mem_append.1 hr with hr | hr
      · exact h.relationships r hr
      · cases List.mem_singleton.1 hr; intro s e; cases e; unfold Unreserved; decide }

private theorem doc_tv : C48.DocTv lic doc :=
  have h := C48.sample_ok
  have hinfo : InfoTv doc.creationInfo :=
    { h.info with
      comment := by intro t h; cases h
      creatorComment := by intro t h; cases h }
  { ids := ⟨by decide +kernel, by decide +kernel, by decide +kernel⟩
    info := hinfo
    packages := fun p hp => by
      have hl := doc_lics.packages p hp
      unfold packageLics at hl
      simp only [List.mem_append, Option.mem_toList] at hl
      rcases (by simpa [doc, Example.doc] using hp : p = Example.package ∨ p = Example.barePackage) with rfl | rfl
      · exact { h.packages _ (.head _) with
          supplier := by intro a h; cases h
          homepage := by intro a h; cases h
          built := by intro a h; cases h
          concluded := fun x hx e he => any_tv (hl e (.inl (.inl (he ▸ hx)))) e rfl
          declared := fun x hx e he => any_tv (hl e (.inl (.inr (he ▸ hx)))) e rfl
          info := fun x hx e he => any_tv (hl e (.inr (he ▸ hx))) e rfl }
      · exact { h.packages _ (.tail _ (.head _)) with
          concluded := fun x hx e he => any_tv (hl e (.inl (.inl (he ▸ hx)))) e rfl
          declared := fun x hx e he => any_tv (hl e (.inl (.inr (he ▸ hx)))) e rfl
          info := fun x hx e he => any_tv (hl e (.inr (he ▸ hx))) e rfl }
    files := fun f hf => by
      have hl := doc_lics.files f hf
      unfold fileLics at hl
      simp only [List.mem_append, Option.mem_toList] at hl
      cases List.mem_singleton.1 hf
      exact { h.files Example.file (.tail _ (.head _)) with
        concluded := fun x hx e he => any_tv (hl e (.inl (he ▸ hx))) e rfl
        info := fun x hx e he => any_tv (hl e (.inr (he ▸ hx))) e rfl }
    snippets := fun f hf => by
      have hl := doc_lics.snippets f hf
      unfold snippetLics at hl
      simp only [List.mem_append, Option.mem_toList] at hl
      cases List.mem_singleton.1 hf
      exact { h.snippets Example.snippet (.tail _ (.head _)) with
        concluded := fun x hx e he => any_tv (hl e (.inl (he ▸ hx))) e rfl
        info := fun x hx e he => any_tv (hl e (.inr (he ▸ hx))) e rfl }
    annotations := h.annotations
    relationships := fun r hr => by
      rcases List.mem_append.1 hr with hr | hr
      · exact h.relationships r (List.mem_append.2 (.inl hr))
      · cases List.mem_singleton.1 hr
        exact ⟨by decide +kernel, by decide +kernel, by intro s e; cases e; decide +kernel, by intro s e; cases e; decide +kernel⟩
    extracted := h.extracted }

private theorem doc_rdf : DocRdf rdf doc :=
  have h := C49.example_ok
  { h with
    ns := by obtain ⟨h1, h2, h3, h4, h5, h6, h7⟩ := h.ns; exact ⟨h1, h2, h3, h4, h5, h6, h7⟩
    packages := fun p hp => by
      have hl := doc_lics.packages p hp
      unfold packageLics at hl
      simp only [List.mem_append, Option.mem_toList] at hl
      have ho := h.packages p hp
      exact { ho with
        concluded := fun x hx e he => any_rdf (hl e (.inl (.inl (he ▸ hx)))) e rfl
        declared := fun x hx e he => any_rdf (hl e (.inl (.inr (he ▸ hx)))) e rfl
        info := ⟨ho.info.1, fun x hx e he => any_rdf (hl e (.inr (he ▸ hx))) e rfl⟩ }
    files := fun f hf => by
      have hl := doc_lics.files f hf
      unfold fileLics at hl
      simp only [List.mem_append, Option.mem_toList] at hl
      have ho := h.files f hf
      exact { ho with
        concluded := fun x hx e he => any_rdf (hl e (.inl (he ▸ hx))) e rfl
        info := ⟨ho.info.1, fun x hx e he => any_rdf (hl e (.inr (he ▸ hx))) e rfl⟩ }
    snippets := fun f hf => by
      have hl := doc_lics.snippets f hf
      unfold snippetLics at hl
      simp only [List.mem_append, Option.mem_toList] at hl
      have ho := h.snippets f hf
      exact { ho with
        concluded := fun x hx e he => any_rdf (hl e (.inl (he ▸ hx))) e rfl
        info := ⟨ho.info.1, fun x hx e he => any_rdf (hl e (.inr (he ▸ hx))) e rfl⟩ }
    relationships := fun r hr => by
      rcases List.mem_append.1 hr with hr | hr
      · exact h.relationships r hr
      · have hf := (h.files _ (.head _)).id
        have hp := (h.packages _ (.head _)).id
        cases List.mem_singleton.1 hr
        exact ⟨.inl hf, by intro s e; cases e; exact .inl hp, by intro s e; cases e; unfold Clean; decide +kernel⟩ }

private theorem doc_portable : Portable ext rdf [] doc where
  json := doc_json
  tagValue := doc_tv
  rdf := doc_rdf
  fresh := by intro r hr p hp; cases hp
  texts := ⟨by decide +kernel, by decide +kernel, by decide +kernel, by decide +kernel, by decide +kernel, by decide +kernel, by decide +kernel⟩
  lics := doc_lics
  settled := by decide +kernel

private theorem doc_valid : Valid ext doc := ((C47.valid_iff _ _ _).1 (by decide +kernel : validateDocument ext doc none = [])).1

private theorem ext_unordered : Unordered ext where
  symbols := C58.example_unordered.symbols
  strict := C58.example_unordered.strict

private theorem licEq_iff (a b : LicExpr) : ext.licEq a b = true ↔ SameLic a b := by
  classical
  exact decide_eq_true_iff

private theorem licEq_same {a b c e : LicExpr} (h : SameLic a b ↔ SameLic c e) : ext.licEq a b = ext.licEq c e :=
  Bool.eq_iff_iff.2 ((licEq_iff a b).trans (h.trans (licEq_iff c e).symm))

private theorem ext_licEq : C17.LicEqOk ext where
  refl e := (licEq_iff e e).2 (Converted.sameLic_refl e)
  symbols a b h := C58.example_unordered.symbols a b ((licEq_iff a b).1 h)
  parse a b h := C58.example_unordered.strict a b ((licEq_iff a b).1 h)

private theorem ext_same : LicEqUnordered ext where
  refl e := (licEq_iff e e).2 (Converted.sameLic_refl e)
  symm _ _ := licEq_same ⟨Converted.sameLic_symm, Converted.sameLic_symm⟩
  same _ _ _ _ ha hb := licEq_same
    ⟨fun h => Converted.sameLic_trans (Converted.sameLic_trans ha h) (Converted.sameLic_symm hb),
     fun h => Converted.sameLic_trans (Converted.sameLic_trans (Converted.sameLic_symm ha) h) hb⟩

/-- One file, with the document as JSON. -/
def world : World := { files := fun n => if n = s%"a.json" then (documentToJson lic doc).map (dumpJson 2 0) else none }

private theorem doc_read : C42.Reads env world s%"a.json" doc := by
  obtain ⟨j, h1, h2⟩ := C23.round_trip lic doc doc_json
  refine ⟨.JSON, dumpJson 2 0 j, by decide +kernel, ?_, ?_⟩
  · show (if s%"a.json" = s%"a.json" then (documentToJson lic doc).map (dumpJson 2 0) else none) = _
    rw [if_pos rfl, h1]
    rfl
  · refine (C71.env_delivers doc .JSON j h1).2 doc ?_
    rw [env_lic, h2]
    exact congrArg Except.ok (by decide +kernel)

/-- The document can be converted to files with any names that stand for a format, any number of times, and has one more relationship after
    each conversion to tag-value. -/
protected theorem example_conversions (names : List Str) (hne : names ≠ []) (hn : ∀ n ∈ names, ∃ fmt, fileNameToFormat n = .ok fmt) :
    ∃ w' e, convertAll env { infile := [] } s%"a.json" names world = (0, w') ∧ C42.Reads env w' (lastName s%"a.json" names) e ∧
      e.relationships.length = 6 + tagValues names := by
  obtain ⟨w', e, h1, h2, h3⟩ := conversions_grow (E := env) (R := rdf) (b := []) ext_unordered ext_licEq ext_same rfl { infile := [] } rfl world s%"a.json"
    names doc hne doc_read (.inr ⟨doc_valid, .inl rfl⟩) (by rw [show dedupDocument env.ext doc = doc from doc_portable.settled]; exact doc_portable)
    fun n hm => by obtain ⟨fmt, h⟩ := hn n hm; exact C71.env_works n fmt h
  refine ⟨w', e, h1, h2, ?_⟩
  rw [h3, show doc.relationships.length = 6 by decide, show remarks doc = 1 by decide +kernel, Nat.mul_one]

/-- From JSON to tag-value, to RDF, to XML, back to the first file, and to tag-value again. -/
example : ∃ w' e, convertAll env { infile := [] } s%"a.json" [s%"b.spdx", s%"c.rdf", s%"d.xml", s%"a.json", s%"b.spdx"] world = (0, w') ∧
    C42.Reads env w' s%"b.spdx" e ∧ e.relationships.length = 8 := by
  obtain ⟨w', e, h1, h2, h3⟩ := C71.example_conversions [s%"b.spdx", s%"c.rdf", s%"d.xml", s%"a.json", s%"b.spdx"] (by decide) (by
    intro n hn
    simp only [List.mem_cons, List.not_mem_nil, or_false] at hn
    rcases hn with rfl | rfl | rfl | rfl | rfl
    · exact ⟨.TAG_VALUE, by decide +kernel⟩
    · exact ⟨.RDF_XML, by decide +kernel⟩
    · exact ⟨.XML, by decide +kernel⟩
    · exact ⟨.JSON, by decide +kernel⟩
    · exact ⟨.TAG_VALUE, by decide +kernel⟩)
  exact ⟨w', e, h1, h2, by rw [h3]; decide +kernel⟩

/-- One writing and reading as tag-value of a relationship with a comment that places a file: it comes back with a second one. -/
theorem grows_once : (match parseTagValue lic (writeTagValue lic { C23.bare with
        packages := [Example.package], files := [Example.file]
        relationships := [⟨s%"SPDXRef-File", .CONTAINED_BY, .val s%"SPDXRef-Package", some s%"why"⟩] }).text with
      | .ok e => some e.relationships
      | .error _ => none) =
    some [contains s%"SPDXRef-Package" s%"SPDXRef-File", ⟨s%"SPDXRef-File", .CONTAINED_BY, .val s%"SPDXRef-Package", some s%"why"⟩] := by
  decide +kernel

end Spdx.C71
