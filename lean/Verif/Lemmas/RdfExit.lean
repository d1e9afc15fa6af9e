import Verif.Lemmas.RdfCrash
/-
The only `sys.exit` in the RDF reader is the one for a graph without a document.
-/
namespace Spdx.RdfExit
open Spdx

/-- Does not end the program. -/
def Stays {β : Type} (x : Except PyErr β) : Prop := x ≠ .error (.other s%"SystemExit")

/-- The same with a logger. -/
def StaysP {α : Type} (x : P α) : Prop := Stays (β := List PMsg × α) x

theorem ok {β : Type} (a : β) : Stays (.ok a) := fun h => by cases h
theorem pureP {α : Type} (a : α) : StaysP (pure a : P α) := fun h => by cases h
theorem pureE {α : Type} (a : α) : Stays (pure a : Py α) := fun h => by cases h
theorem okP {α : Type} (x : List PMsg × α) : StaysP (α := α) (.ok x) := fun h => by cases h
theorem parsing {β : Type} (ms : List PMsg) : Stays (β := β) (.error (.parsing ms)) := fun h => by cases h
theorem value {β : Type} (s : Str) : Stays (β := β) (.error (.value s)) := fun h => by cases h
theorem type {β : Type} (s : Str) : Stays (β := β) (.error (.type s)) := fun h => by cases h
theorem attribute_ {β : Type} : Stays (β := β) (.error attributeError) := fun h => by
  have : attributeError = .other s%"SystemExit" := by injection h
  exact absurd this (by decide)
theorem key {β : Type} : Stays (β := β) (.error keyError) := fun h => by
  have : keyError = .other s%"SystemExit" := by injection h
  exact absurd this (by decide)

/-- One of the endings above. -/
macro "ends" : tactic => `(tactic| first | exact ok _ | exact okP _ | exact parsing _ | exact value _ | exact type _ | exact attribute_ | exact key)

theorem bindE {α β : Type} {x : Py α} {f : α → Py β} (hx : Stays x) (hf : ∀ a, Stays (f a)) : Stays (x >>= f) := by
  cases x with
  | error e => intro h; apply hx; injection h with h; rw [h]
  | ok a => exact hf a

theorem bindP {α β : Type} {x : P α} {f : α → P β} (hx : StaysP x) (hf : ∀ a, StaysP (f a)) : StaysP (x >>= f) := by
  match x, hx with
  | .error e, hx => intro h; apply hx; injection h with h; rw [h]
  | .ok (ms, a), _ =>
    intro h
    have h' : (match f a with | .error e => .error e | .ok (ms', b) => .ok (ms ++ ms', b) : Except PyErr (List PMsg × β)) = .error (.other s%"SystemExit") := h
    cases hfa : f a with
    | error e => rw [hfa] at h'; injection h' with h'; exact hf a (by rw [hfa, h'])
    | ok r => rw [hfa] at h'; cases h'

theorem lift {α : Type} {x : Py α} (hx : Stays x) : StaysP x.lift := by
  cases x with
  | error e => intro h; apply hx; injection h with h; rw [h]
  | ok a => exact fun h => by cases h

theorem mapM {ν α : Type} {m : ν → Py α} (h : ∀ v, Stays (m v)) : ∀ l : List ν, Stays (l.mapM m)
  | [] => fun h => by cases h
  | v :: l => by
    rw [List.mapM_cons]
    exact bindE (h v) fun a => bindE (mapM h l) fun _ => pureE _

theorem orRaiseIn {α : Type} {p : P α} {w : Str} (h : StaysP p) : Stays (p.orRaiseIn w) := by
  match p, h with
  | .error e, h => exact fun h' => h (by injection h' with h'; rw [h'])
  | .ok ([], a), _ => exact ok _
  | .ok (m :: ms, a), _ => exact parsing _
theorem orRaise {α : Type} {p : P α} (h : StaysP p) : Stays p.orRaise := by
  match p, h with
  | .error e, h => exact fun h' => h (by injection h' with h'; rw [h'])
  | .ok ([], a), _ => exact ok _
  | .ok (m :: ms, a), _ => exact parsing _
theorem unheard {α : Type} {p : P α} (h : StaysP p) : Stays p.unheard := by
  match p, h with
  | .error e, h => exact fun h' => h (by injection h' with h'; rw [h'])
  | .ok (_, a), _ => exact ok _
theorem construct_ {α : Type} (cls : Str) (c : Check α) : Stays (construct cls c) := by
  cases c with
  | ok a => exact ok a
  | error e => exact parsing _
theorem part_ {α : Type} {x : Py α} (h : Stays x) : StaysP (part x) := by
  match x, h with
  | .ok a, _ => exact okP _
  | .error (.parsing ms), _ => exact okP _
  | .error (.type s), _ => exact type s
  | .error (.value s), _ => exact value s
  | .error (.other s), h => exact fun h' => h (by injection h' with h'; rw [h'])

theorem unique (g : RdfGraph) (s : RdfNode) (p : Pred) : StaysP (readUnique g s p) := by
  unfold readUnique
  match g.objects s p with
  | [] => exact okP _
  | [_] => exact okP _
  | _ :: _ :: _ => exact okP _
theorem apply {α : Type} {m : RdfNode → Py α} {v : RdfNode} (h : Stays (m v)) : StaysP (applyOrLog m v) := by
  unfold applyOrLog
  generalize m v = x at h
  match x, h with
  | .ok a, _ => exact okP _
  | .error (.parsing ms), _ => exact okP _
  | .error (.type s), _ => exact okP _
  | .error (.value s), _ => exact okP _
  | .error (.other s), h => exact fun h' => h (by injection h' with h'; rw [h'])
theorem literal {α : Type} {m : RdfNode → Py α} (h : ∀ v, Stays (m v)) (g : RdfGraph) (s : RdfNode) (p : Pred) : StaysP (readLiteral g s p m) := by
  unfold readLiteral
  refine bindP (unique g s p) fun o => ?_
  cases o with
  | none => exact pureP _
  | some v => dsimp only; split <;> first | exact apply (h v) | exact pureP _
theorem typed {α : Type} {m : RdfNode → Py (Option α)} {v : RdfNode} (h : Stays (m v)) : StaysP (readTyped m v) := by
  unfold readTyped
  split
  · exact pureP _
  split
  · exact pureP _
  split
  · exact pureP _
  · exact bindP (apply h) fun _ => pureP _
theorem special {α : Type} {m : RdfNode → Py (Option α)} (h : ∀ v, Stays (m v)) (g : RdfGraph) (s : RdfNode) (p : Pred) : StaysP (readSpecial g s p m) := by
  unfold readSpecial
  refine bindP (unique g s p) fun o => ?_
  cases o with
  | none => exact pureP _
  | some v => exact typed (h v)
theorem each {α : Type} {m : RdfNode → Py α} (h : ∀ v, Stays (m v)) : ∀ l, StaysP (readEach m l)
  | [] => pureP _
  | v :: l => bindP (apply (h v)) fun _ => bindP (each h l) fun _ => pureP _

theorem strip_ (v : RdfNode) : Stays (readStrip v) := ok _
theorem stripS (v : RdfNode) : Stays (readStripSpecial v) := ok _
theorem enum {α : Type} (cls pre : Str) (f : Str → Option α) (v : RdfNode) : Stays (readEnum cls f pre v) := by
  unfold readEnum; split <;> ends
theorem actor (s : Str) : Stays (readActor s) := by
  unfold readActor; split <;> ends
theorem actorS (v : RdfNode) : Stays ((readActor v.text).map some) := by
  have h := actor v.text
  generalize readActor v.text = x at h
  cases x with
  | ok a => exact ok _
  | error e => exact fun h' => h (by injection h' with h'; rw [h'])
theorem date (v : RdfNode) : Stays (readDate v) := by unfold readDate; split <;> ends
theorem version (v : RdfNode) : Stays (readVersion v) := by unfold readVersion; split <;> ends
theorem algorithm (v : RdfNode) : Stays (readAlgorithm v) := by unfold readAlgorithm; split <;> ends
theorem id (b : Bindings) (ns : Str) (v : RdfNode) : Stays (readId b ns v) := by unfold readId; split <;> ends
theorem idOf (b : Bindings) (ns : Str) (o : Option RdfNode) : Stays (readIdOf b ns o) := by
  cases o
  · exact ok _
  · exact id _ _ _
theorem licText (env : RdfEnv) (s : Str) : Stays (readLicText env s) := by
  unfold readLicText; split
  · exact ok _
  · intro h
    have : PyErr.other s%"ExpressionError" = .other s%"SystemExit" := by injection h
    exact absurd this (by decide)
theorem notNone_ {α : Type} (o : Option α) : Stays (notNone o) := by cases o <;> ends
theorem license (env : RdfEnv) (g : RdfGraph) (ns : Str) : ∀ k v, Stays (readLicense env g ns k v)
  | 0, v => fun h => by
    have : PyErr.other s%"RecursionError" = .other s%"SystemExit" := by injection h
    exact absurd this (by decide)
  | k + 1, v => by
    unfold readLicense
    split
    · exact licText _ _
    split
    · split
      · exact licText _ _
      · exact attribute_
    split
    · exact licText _ _
    split
    · exact bindE (mapM (license env g ns k) _) fun _ => licText _ _
    split
    · exact bindE (mapM (license env g ns k) _) fun _ => licText _ _
    split
    · exact bindE (notNone_ _) fun m => bindE (license env g ns k m) fun _ => bindE (notNone_ _) fun _ => bindE (notNone_ _) fun _ => licText _ _
    · exact licText _ _
theorem licenses (env : RdfEnv) (g : RdfGraph) (ns : Str) : ∀ l, StaysP (readLicenses env g ns l)
  | [] => pureP _
  | v :: l => bindP (typed (license env g ns _ v)) fun _ => bindP (licenses env g ns l) fun _ => pureP _
theorem refType (ns : Str) (v : RdfNode) : Stays (readRefType ns v) := by
  unfold readRefType
  split
  · split
    · exact ok _
    · exact attribute_
  split
  · exact ok _
  · exact ok _

/-- Goes through the steps of a reader. -/
syntax "stays" : tactic
macro_rules | `(tactic| stays) => `(tactic| repeat' first
  | exact pureP _ | exact pureE _ | exact ok _ | exact okP _ | exact construct_ _ _ | exact strip_ _ | exact stripS _ | exact enum _ _ _ _ | exact actor _
  | exact actorS _ | exact date _ | exact version _ | exact algorithm _ | exact id _ _ _ | exact idOf _ _ _ | exact license _ _ _ _ _
  | exact licenses _ _ _ _ | exact refType _ _
  | refine orRaiseIn ?_ | refine unheard ?_ | refine lift ?_ | refine literal (fun _ => ?_) _ _ _ | refine special (fun _ => ?_) _ _ _
  | refine each (fun _ => ?_) _ | refine mapM (fun _ => ?_) _ | refine bindP ?_ fun _ => ?_ | refine bindE ?_ fun _ => ?_)

theorem checksum (g : RdfGraph) (n : RdfNode) : Stays (readChecksum g n) := by unfold readChecksum; stays
macro_rules | `(tactic| stays) => `(tactic| repeat' first
  | exact pureP _ | exact pureE _ | exact ok _ | exact okP _ | exact construct_ _ _ | exact strip_ _ | exact stripS _ | exact enum _ _ _ _ | exact actor _
  | exact actorS _ | exact date _ | exact version _ | exact algorithm _ | exact id _ _ _ | exact idOf _ _ _ | exact license _ _ _ _ _
  | exact licenses _ _ _ _ | exact refType _ _ | exact checksum _ _
  | refine orRaiseIn ?_ | refine unheard ?_ | refine lift ?_ | refine literal (fun _ => ?_) _ _ _ | refine special (fun _ => ?_) _ _ _
  | refine each (fun _ => ?_) _ | refine mapM (fun _ => ?_) _ | refine bindP ?_ fun _ => ?_ | refine bindE ?_ fun _ => ?_)

theorem code (g : RdfGraph) (n : RdfNode) : Stays (readVerificationCode g n) := by unfold readVerificationCode; stays
theorem packageRef (g : RdfGraph) (ns : Str) (n : RdfNode) : Stays (readPackageRef g ns n) := by unfold readPackageRef; stays
theorem extRef (g : RdfGraph) (ns : Str) (b : Bindings) (n : RdfNode) : Stays (readExtRef g ns b n) := by
  unfold readExtRef
  refine bindE (id _ _ _) fun _ => bindE (by stays) fun _ => bindE (construct_ _ _) fun _ => ?_
  split
  · exact key
  · exact ok _
theorem extRefs (g : RdfGraph) (ns : Str) : ∀ (l : List RdfNode) (b : Bindings), Stays (readExtRefs g ns b l)
  | [], _ => ok _
  | n :: l, b => bindE (extRef g ns b n) fun _ => bindE (extRefs g ns l _) fun _ => pureE _
theorem creator (n : RdfNode) : Stays (readCreator n) := by
  unfold readCreator
  split
  · exact actor _
  · exact type _
theorem info (env : RdfEnv) (b : Bindings) (g : RdfGraph) (x : Str × Option Str × RdfNode) (h : readNamespace env g = .ok x) :
    Stays (readCreationInfo env b g) := by
  unfold readCreationInfo
  rw [h]
  refine bindE (ok _) fun x => ?_
  obtain ⟨ns, id, doc⟩ := x
  have hd : StaysP (readDocFields g doc) := by unfold readDocFields; stays
  dsimp only
  split
  · rename_i e he
    rw [he] at hd
    exact fun h' => hd (by injection h' with h'; rw [h'])
  · split
    · exact parsing _
    · refine bindE ?_ fun _ => bindE (construct_ _ _) fun _ => pureE _
      unfold readInfoNode
      refine orRaiseIn (bindP (okP _) fun _ => bindP ?_ fun _ => bindP ?_ fun _ => bindP (lift (extRefs g ns _ b)) fun _ => pureP _)
      · unfold readInfoFields
        refine bindP (literal date _ _ _) fun _ => bindP (literal version _ _ _) fun _ => bindP (literal strip_ _ _ _) fun _ =>
          bindP (lift (mapM creator _)) fun _ => pureP _
      · unfold logNoCreators
        split <;> exact okP _

theorem annotation (b : Bindings) (g : RdfGraph) (ns : Str) (e : RdfNode × RdfNode) : Stays (readAnnotation b g ns e) := by
  unfold readAnnotation; stays
theorem file (env : RdfEnv) (b : Bindings) (g : RdfGraph) (ns : Str) (n : RdfNode) : Stays (readFile env b g ns n) := by
  unfold readFile; stays
theorem relationship (b : Bindings) (g : RdfGraph) (ns : Str) (e : RdfNode × RdfNode) : Stays (readRelationship b g ns e) := by
  unfold readRelationship; stays
theorem implicit (b : Bindings) (ns : Str) (t : RelationshipType) (e : RdfNode × RdfNode) : Stays (readImplicit b ns t e) := by
  unfold readImplicit; stays
theorem rangeValue (g : RdfGraph) (n : RdfNode) (p : Pred) : Stays (readRangeValue g n p) := by
  unfold readRangeValue
  split
  · exact ok _
  · split
    · split
      · exact ok _
      · exact value _
    · exact ok _
  · exact parsing _
theorem pointer (g : RdfGraph) (n : RdfNode) (p : Pred) : Stays (readPointer g n p) := by
  unfold readPointer
  split
  · exact parsing _
  · split
    · exact ok _
    · exact parsing _
  · exact parsing _
theorem range (g : RdfGraph) (n : RdfNode) : Stays (readRange g n) := by
  unfold readRange
  refine bindE (pointer _ _ _) fun ⟨t, a⟩ => bindE (pointer _ _ _) fun ⟨u, z⟩ => ?_
  dsimp only
  split
  · exact parsing _
  · split
    · exact key
    · exact bindE (rangeValue _ _ _) fun _ => bindE (rangeValue _ _ _) fun _ => pureE _
theorem setRange (rs : Ranges) (o : Option (RangeKind × (Option Int × Option Int))) : StaysP (setReadRange rs o) := by
  unfold setReadRange
  split
  · exact okP _
  · split <;> exact okP _
  · split <;> exact okP _
theorem ranges (g : RdfGraph) : ∀ (l : List RdfNode) (rs : Ranges), StaysP (readRanges g rs l)
  | [], _ => pureP _
  | n :: l, rs => bindP (apply (range g n)) fun _ => bindP (setRange rs _) fun _ => ranges g l _
theorem snippet (env : RdfEnv) (b : Bindings) (g : RdfGraph) (ns : Str) (n : RdfNode) : Stays (readSnippet env b g ns n) := by
  unfold readSnippet
  refine bindE (id _ _ _) fun _ => bindE (idOf _ _ _) fun _ => bindE (orRaiseIn (bindP (ranges _ _ _) fun _ => ?_)) fun _ => construct_ _ _
  stays
theorem licenseId (ns : Str) (n : RdfNode) (o : Option Str) : Stays (readLicenseId ns n o) := by
  unfold readLicenseId
  split
  · exact ok _
  · split
    · split
      · exact ok _
      · exact attribute_
    · exact ok _
theorem extracted (g : RdfGraph) (ns : Str) (n : RdfNode) : Stays (readExtracted g ns n) := by
  unfold readExtracted
  refine bindE (orRaiseIn (bindP (literal strip_ _ _ _) fun _ => bindP (lift (licenseId _ _ _)) fun _ => ?_)) fun _ => construct_ _ _
  stays
theorem package (env : RdfEnv) (b : Bindings) (g : RdfGraph) (ns : Str) (n : RdfNode) : Stays (readPackage env b g ns n) := by
  unfold readPackage
  refine bindE (id _ _ _) fun _ => bindE (orRaiseIn ?_) fun _ => construct_ _ _
  refine bindP (literal strip_ _ _ _) fun _ => bindP (special stripS _ _ _) fun _ => bindP (lift (mapM (checksum g) _)) fun _ =>
    bindP (literal strip_ _ _ _) fun _ => bindP (literal strip_ _ _ _) fun _ => bindP (special actorS _ _ _) fun _ => bindP (special actorS _ _ _) fun _ =>
    bindP (literal (code g) _ _ _) fun _ => bindP (lift (mapM (packageRef g ns) _)) fun _ => ?_
  stays

theorem all {ν α : Type} {m : ν → Py α} (h : ∀ v, Stays (m v)) : ∀ l, StaysP (readAll m l)
  | [] => okP _
  | v :: l => bindP (part_ (h v)) fun _ => bindP (all h l) fun _ => pureP _
theorem implicits (b : Bindings) (ns : Str) (t : RelationshipType) : ∀ (l : List (RdfNode × RdfNode)) (rels : List Relationship),
    StaysP (readImplicits b ns t rels l)
  | [], _ => pureP _
  | e :: l, _ => bindP (part_ (implicit b ns t e)) fun _ => implicits b ns t l _

/-- A graph with a document does not end the program. -/
theorem rdf (env : RdfEnv) (b : Bindings) (g : RdfGraph) (x : Str × Option Str × RdfNode) (h : readNamespace env g = .ok x) :
    Stays (readRdf env b g) := by
  unfold readRdf
  refine bindE (info env b g x h) fun c => ?_
  obtain ⟨c, b'⟩ := c
  have he :=
    bindP
    (all (package env b' g c.documentNamespace) (g.subjects .type (spdxTerm s%"Package"))) fun packages =>
    bindP (all (file env b' g c.documentNamespace) (g.subjects .type (spdxTerm s%"File"))) fun files =>
    bindP (all (snippet env b' g c.documentNamespace) (g.subjects .type (spdxTerm s%"Snippet"))) fun snippets =>
    bindP (all (annotation b' g c.documentNamespace) (g.pairs .annotation)) fun annotations =>
    bindP (all (relationship b' g c.documentNamespace) (g.pairs .relationship)) fun rels =>
    bindP (implicits b' c.documentNamespace .CONTAINS (g.pairs .hasFile) rels) fun rels =>
    bindP (implicits b' c.documentNamespace .DESCRIBES (g.pairs .describesPackage) rels) fun rels =>
    bindP (all (m := fun e : RdfNode × RdfNode => readExtracted g c.documentNamespace e.2) (fun e => extracted g c.documentNamespace e.2) (g.pairs .hasExtractedLicensingInfo)) fun extracted =>
    pureP (packages, files, snippets, annotations, rels, extracted)
  refine bindE ?_ fun _ => fun h => nomatch h
  exact orRaise he

end Spdx.RdfExit
