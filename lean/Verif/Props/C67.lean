import Verif.Lemmas.JsonCrash
import Verif.Props.C24
import Verif.Spec.Example
import Verif.Lemmas.ParseInv
import Verif.Props.C66
/-
C67: which trees make the reader raise something else than `SPDXParsingError`.

Whoever reads a file of someone else's expects `SPDXParsingError` for everything that is wrong with it.  The theorem says for which trees this
is so (`Spec/JsonShape`).
-/
namespace Spdx.C67
open Spdx Spdx.Spec Spdx.JsonCrash
open JsonSays (Obj valueAt Blank Items)
open JsonShape

/-- What makes the reader of trees raise another exception. -/
private def Bad (o : Obj) : Prop := BadInfo o ∨
  (¬ Blank (valueAt o s%"packages") ∧ BadItems (valueAt o s%"packages") fun x => NoObject x ∨ ∃ o, x = .obj o ∧ BadPackage o) ∨
  (¬ Blank (valueAt o s%"files") ∧ BadItems (valueAt o s%"files") fun x => NoObject x ∨ ∃ o, x = .obj o ∧ SomeItem (valueAt o s%"checksums") NoObject) ∨
  (¬ Blank (.obj o) ∧ (SomeItem (valueAt o s%"annotations") NoObject ∨ BadEntries o s%"revieweds" NoObject ∨
    BadEntries o s%"packages" BadElement ∨ BadEntries o s%"files" BadElement ∨ BadEntries o s%"snippets" BadElement)) ∨
  (¬ Blank (valueAt o s%"snippets") ∧ BadItems (valueAt o s%"snippets") NoObject) ∨
  (¬ Blank (.obj o) ∧ (SomeItem (valueAt o s%"relationships") NoObject ∨ BadEntries o s%"documentDescribes" Unhashable)) ∨
  (¬ Blank (valueAt o s%"hasExtractedLicensingInfos") ∧ BadItems (valueAt o s%"hasExtractedLicensingInfos") NoObject)

private theorem document (L : LicText) (o : Obj) : Raises NotParsing (parseDocument L (.obj o)) (Bad o) := by
  unfold parseDocument
  simp only [JsonSays.get_obj, lift_bind]
  refine raises_bind (raises_orRaise (fun _ h => h) ?_) fun _ => raises_construct (fun _ h => h) _ _
  have mono : ∀ {α : Type} {p : P α} {Q : Prop}, Says Other p Q → Says NotParsing p Q := fun h => says_mono h other_notParsing
  have list : ∀ {α : Type} {m : Json → Py α} {Q : Json → Prop}, (∀ x, Raises Other (m x) (Q x)) → ∀ v, Raises NotParsing (parseList m v) (BadItems v Q) :=
    fun h v => raises_items fun l => raises_orRaise (fun _ h => h) (mono (says_collect h l))
  unfold Bad
  refine says_bind (says_part (creationInfo o)) fun _ => ?_
  refine says_then (says_optPart (raises_items fun l => raises_orRaise (fun _ h => h) (mono (says_collectPackages L l)))) fun hp _ => ?_
  refine says_bind (says_optPart (list (file L) _)) fun _ => ?_
  refine says_bind (says_optPart (allAnnotations o)) fun _ => ?_
  refine says_bind (says_optPart (list (snippet L) _)) fun _ => ?_
  refine says_bind (says_optPart (allRelationships o fun h => hp ⟨someItem_not_blank h, .inr ?_⟩)) fun _ => ?_
  · obtain ⟨l, hl, x, hx, q⟩ := h
    exact ⟨l, hl, x, hx, .inl q⟩
  exact says_congr (says_bind (says_optPart (list extracted _)) fun _ => says_pure _ _) (Iff.of_eq (or_false _))

private theorem objects_iff {v : Json} {shape : Obj → Prop} : Objects shape v ↔ ¬ SomeItem v fun x => NoObject x ∨ ∃ o, x = .obj o ∧ ¬ shape o := by
  constructor
  · rintro h ⟨l, hl, x, hx, q⟩
    obtain ⟨o, rfl, hs⟩ := h l hl x hx
    rcases q with q | ⟨o', e, q⟩
    · exact q o rfl
    · cases e; exact q hs
  · intro h l hl x hx
    refine Classical.byContradiction fun n => h ⟨l, hl, x, hx, ?_⟩
    by_cases hob : NoObject x
    · exact .inl hob
    · obtain ⟨o, rfl⟩ : ∃ o, x = .obj o := Classical.byContradiction fun n => hob fun o e => n ⟨o, e⟩
      exact .inr ⟨o, rfl, fun hs => n ⟨o, rfl, hs⟩⟩

private theorem any_iff {v : Json} : Objects Any v ↔ ¬ SomeItem v NoObject := by
  rw [objects_iff]
  have : (fun x => NoObject x ∨ ∃ o, x = .obj o ∧ ¬ Any o) = NoObject := by
    funext x
    exact propext ⟨fun h => h.elim id fun ⟨_, _, h⟩ => absurd trivial h, .inl⟩
  rw [this]

private theorem part_iff {v : Json} {Q : Json → Prop} : ¬ (¬ Blank v ∧ BadItems v Q) ↔ (Blank v ∨ HasItems v) ∧ ¬ SomeItem v Q := by
  unfold BadItems
  constructor
  · intro h
    refine ⟨Classical.byContradiction fun n => h ⟨fun b => n (.inl b), .inl fun i => n (.inr i)⟩, fun q => h ⟨someItem_not_blank q, .inr q⟩⟩
  · rintro ⟨h1, h2⟩ ⟨hb, h | h⟩
    · exact h1.elim hb h
    · exact h2 h

private theorem entries_iff {o : Obj} {k : Str} {Q : Json → Prop} : ¬ BadEntries o k Q ↔ IfThere o k fun v => HasItems v ∧ ¬ SomeItem v Q := by
  unfold BadEntries BadItems IfThere
  constructor
  · intro h v hv
    exact ⟨Classical.byContradiction fun n => h ⟨v, hv, .inl n⟩, fun q => h ⟨v, hv, .inr q⟩⟩
  · rintro h ⟨v, hv, q⟩
    obtain ⟨h1, h2⟩ := h v hv
    exact q.elim (fun n => n h1) h2

private theorem there {o : Obj} {k : Str} {v : Json} (h : o.lookup k = some v) : ¬ Blank (.obj o) := by
  intro hb
  rcases hb with e | e | e | e | e | e <;> cases e
  cases h

private theorem entries_there {o : Obj} {k : Str} {Q : Json → Prop} (h : BadEntries o k Q) : ¬ Blank (.obj o) := by
  obtain ⟨v, hv, _⟩ := h
  exact there hv

private theorem item_there {o : Obj} {k : Str} {Q : Json → Prop} (h : SomeItem (valueAt o k) Q) : ¬ Blank (.obj o) := by
  cases hk : o.lookup k with
  | some v => exact there hk
  | none =>
    unfold valueAt at h
    rw [hk] at h
    exact absurd (.inl rfl) (someItem_not_blank h)

private theorem badRef_iff (v : Json) : RefShape v ↔ ¬ BadRef v := by
  unfold RefShape BadRef BadObject
  constructor
  · rintro (h | ⟨o, rfl, h⟩) ⟨hb, q⟩
    · exact hb h
    · rcases q with q | ⟨o', e, q⟩
      · exact q o rfl
      · cases e
        rcases h with h | ⟨c, h⟩
        · exact q.1 h
        · exact q.2 c h
  · intro h
    by_cases hb : Blank v
    · exact .inl hb
    · have h : ¬ (NoObject v ∨ ∃ o, v = .obj o ∧ ¬ Blank (valueAt o s%"checksum") ∧ NoObject (valueAt o s%"checksum")) := fun q => h ⟨hb, q⟩
      obtain ⟨o, rfl⟩ : ∃ o, v = .obj o := Classical.byContradiction fun n => h (.inl fun o e => n ⟨o, e⟩)
      refine .inr ⟨o, rfl, ?_⟩
      by_cases hc : Blank (valueAt o s%"checksum")
      · exact .inl hc
      · exact .inr (Classical.byContradiction fun n => h (.inr ⟨o, rfl, hc, fun c e => n ⟨c, e⟩⟩))

private theorem packageShape_iff (o : Obj) : PackageShape o ↔ ¬ BadPackage o ∧ ¬ SomeItem (valueAt o s%"annotations") NoObject := by
  unfold BadPackage BadObject
  constructor
  · rintro ⟨h1, h2, h3, h4⟩
    refine ⟨?_, any_iff.1 h4⟩
    rintro (q | q | ⟨q1, q2⟩)
    · exact any_iff.1 h1 q
    · exact any_iff.1 h2 q
    · rcases h3 with h | ⟨c, h⟩
      · exact q1 h
      · exact q2 c h
  · rintro ⟨h, h4⟩
    refine ⟨any_iff.2 fun q => h (.inl q), any_iff.2 fun q => h (.inr (.inl q)), ?_, any_iff.2 h4⟩
    by_cases hc : Blank (valueAt o s%"packageVerificationCode")
    · exact .inl hc
    · exact .inr (Classical.byContradiction fun n => h (.inr (.inr ⟨hc, fun c e => n ⟨c, e⟩⟩)))

/-- Both passes over the elements of a kind find nothing wrong exactly if they have the shape. -/
private theorem elements_iff (v : Json) (bad : Obj → Prop) (shape : Obj → Prop)
    (h : ∀ o, shape o ↔ ¬ bad o ∧ ¬ SomeItem (valueAt o s%"annotations") NoObject) :
    Objects shape v ↔ (¬ SomeItem v fun x => NoObject x ∨ ∃ o, x = .obj o ∧ bad o) ∧ ¬ SomeItem v BadElement := by
  constructor
  · intro hs
    constructor
    · rintro ⟨l, hl, x, hx, q⟩
      obtain ⟨o, rfl, ho⟩ := hs l hl x hx
      rcases q with q | ⟨o', e, q⟩
      · exact q o rfl
      · cases e; exact ((h o).1 ho).1 q
    · rintro ⟨l, hl, x, hx, q⟩
      obtain ⟨o, rfl, ho⟩ := hs l hl x hx
      rcases q with q | ⟨o', e, q⟩
      · exact q o rfl
      · cases e; exact ((h o).1 ho).2 q
  · rintro ⟨h1, h2⟩ l hl x hx
    obtain ⟨o, rfl⟩ : ∃ o, x = .obj o := Classical.byContradiction fun n => h1 ⟨l, hl, x, hx, .inl fun o e => n ⟨o, e⟩⟩
    exact ⟨o, rfl, (h o).2 ⟨fun q => h1 ⟨l, hl, _, hx, .inr ⟨o, rfl, q⟩⟩, fun q => h2 ⟨l, hl, _, hx, .inr ⟨o, rfl, q⟩⟩⟩⟩

private theorem fields_iff (o : Obj) (k : Str) (bad : Obj → Prop) (shape : Obj → Prop)
    (h : ∀ o, shape o ↔ ¬ bad o ∧ ¬ SomeItem (valueAt o s%"annotations") NoObject) :
    IfThere o k (fun v => HasItems v ∧ Objects shape v) ↔
      ¬ (¬ Blank (valueAt o k) ∧ BadItems (valueAt o k) fun x => NoObject x ∨ ∃ o, x = .obj o ∧ bad o) ∧ ¬ BadEntries o k BadElement := by
  rw [part_iff, entries_iff]
  unfold valueAt IfThere
  cases hk : o.lookup k with
  | none => exact ⟨fun _ => ⟨⟨.inl (.inl rfl), fun q => someItem_not_blank q (.inl rfl)⟩, fun v e => (by cases e)⟩, fun _ v e => (by cases e)⟩
  | some v =>
    constructor
    · intro hs
      obtain ⟨h1, h2⟩ := hs v rfl
      rw [elements_iff v bad shape h] at h2
      refine ⟨⟨.inr h1, h2.1⟩, fun v' e => ?_⟩
      cases e
      exact ⟨h1, h2.2⟩
    · rintro ⟨⟨_, h2⟩, h3⟩ v' e
      cases e
      obtain ⟨h4, h5⟩ := h3 v rfl
      exact ⟨h4, (elements_iff v bad shape h).2 ⟨h2, h5⟩⟩

private theorem badInfo_iff (o : Obj) : ¬ BadInfo o ↔
    (valueAt o s%"creationInfo" = .null ∨ ∃ i, valueAt o s%"creationInfo" = .obj i) ∧
    (valueAt o s%"creationInfo" = .null ∨ ∀ l, Items (valueAt o s%"externalDocumentRefs") l → ∀ x ∈ l, RefShape x) := by
  unfold BadInfo
  by_cases hn : valueAt o s%"creationInfo" = .null
  · exact ⟨fun _ => ⟨.inl hn, .inl hn⟩, fun _ h => h.1 hn⟩
  · constructor
    · intro h
      refine ⟨.inr (Classical.byContradiction fun n => h ⟨hn, .inl fun i e => n ⟨i, e⟩⟩), .inr fun l hl x hx => ?_⟩
      exact (badRef_iff x).2 fun q => h ⟨hn, .inr ⟨l, hl, x, hx, q⟩⟩
    · rintro ⟨h1, h2⟩ ⟨_, q⟩
      rcases q with q | ⟨l, hl, x, hx, q⟩
      · obtain ⟨i, hi⟩ := h1.resolve_left hn
        exact q i hi
      · exact (badRef_iff x).1 (h2.resolve_left hn l hl x hx) q

private theorem described_iff (v : Json) :
    (¬ SomeItem v Unhashable) ↔ ∀ l, Items v l → ∀ x ∈ l, (∀ l', x ≠ .arr l') ∧ ∀ o', x ≠ .obj o' := by
  constructor
  · intro h l hl x hx
    exact ⟨fun l' e => h ⟨l, hl, x, hx, .inl ⟨l', e⟩⟩, fun o' e => h ⟨l, hl, x, hx, .inr ⟨o', e⟩⟩⟩
  · rintro h ⟨l, hl, x, hx, ⟨l', e⟩ | ⟨o', e⟩⟩
    · exact (h l hl x hx).1 l' e
    · exact (h l hl x hx).2 o' e

private theorem snippet_bad {v : Json} : (BadItems v fun x => NoObject x ∨ ∃ o : Obj, x = .obj o ∧ False) ↔ BadItems v NoObject := by
  have : (fun x => NoObject x ∨ ∃ o : Obj, x = .obj o ∧ False) = NoObject := by
    funext x
    exact propext ⟨fun h => h.elim id fun ⟨_, _, h⟩ => h.elim, .inl⟩
  rw [this]

private theorem shape_iff (o : Obj) : DocumentShape o ↔ ¬ Bad o := by
  have packages := fields_iff o s%"packages" BadPackage PackageShape packageShape_iff
  have files := fields_iff o s%"files" (fun o => SomeItem (valueAt o s%"checksums") NoObject) FileShape fun o =>
    ⟨fun h => ⟨any_iff.1 h.checksums, any_iff.1 h.annotations⟩, fun h => ⟨any_iff.2 h.1, any_iff.2 h.2⟩⟩
  have snippets := fields_iff o s%"snippets" (fun _ => False) SnippetShape fun o =>
    ⟨fun h => ⟨id, any_iff.1 h.annotations⟩, fun h => ⟨any_iff.2 h.2⟩⟩
  rw [snippet_bad] at snippets
  have reviews : IfThere o s%"revieweds" (fun v => HasItems v ∧ Objects Any v) ↔ ¬ BadEntries o s%"revieweds" NoObject := by
    rw [entries_iff]
    exact ⟨fun h v hv => ⟨(h v hv).1, any_iff.1 (h v hv).2⟩, fun h v hv => ⟨(h v hv).1, any_iff.2 (h v hv).2⟩⟩
  have described : IfThere o s%"documentDescribes" (fun v => HasItems v ∧ ∀ l, Items v l → ∀ x ∈ l, (∀ l', x ≠ .arr l') ∧ ∀ o', x ≠ .obj o') ↔
      ¬ BadEntries o s%"documentDescribes" Unhashable := by
    rw [entries_iff]
    exact ⟨fun h v hv => ⟨(h v hv).1, (described_iff v).2 (h v hv).2⟩, fun h v hv => ⟨(h v hv).1, (described_iff v).1 (h v hv).2⟩⟩
  have extracted := part_iff (v := valueAt o s%"hasExtractedLicensingInfos") (Q := NoObject)
  have info := badInfo_iff o
  constructor
  · intro h
    have hi := info.2 ⟨h.creationInfo, h.refs⟩
    have hp := packages.1 h.packages
    have hf := files.1 h.files
    have hs := snippets.1 h.snippets
    have hr := reviews.1 h.reviews
    have hd := described.1 h.described
    have he := extracted.2 ⟨h.extracted.1, any_iff.1 h.extracted.2⟩
    rintro (q | q | q | ⟨_, q | q | q | q | q⟩ | q | ⟨_, q | q⟩ | q)
    · exact hi q
    · exact hp.1 q
    · exact hf.1 q
    · exact any_iff.1 h.annotations q
    · exact hr q
    · exact hp.2 q
    · exact hf.2 q
    · exact hs.2 q
    · exact hs.1 q
    · exact any_iff.1 h.relationships q
    · exact hd q
    · exact he q
  · intro h
    unfold Bad at h
    have hi := info.1 fun q => h (.inl q)
    have ann : ∀ q : Prop, (q → ¬ Blank (.obj o)) → (q → (SomeItem (valueAt o s%"annotations") NoObject ∨ BadEntries o s%"revieweds" NoObject ∨
        BadEntries o s%"packages" BadElement ∨ BadEntries o s%"files" BadElement ∨ BadEntries o s%"snippets" BadElement)) → ¬ q :=
      fun q hb hq x => h (.inr (.inr (.inr (.inl ⟨hb x, hq x⟩))))
    have rel : ∀ q : Prop, (q → ¬ Blank (.obj o)) →
        (q → (SomeItem (valueAt o s%"relationships") NoObject ∨ BadEntries o s%"documentDescribes" Unhashable)) → ¬ q :=
      fun q hb hq x => h (.inr (.inr (.inr (.inr (.inr (.inl ⟨hb x, hq x⟩))))))
    have he := extracted.1 fun q => h (.inr (.inr (.inr (.inr (.inr (.inr q))))))
    exact {
      creationInfo := hi.1
      refs := hi.2
      packages := packages.2 ⟨fun q => h (.inr (.inl q)), ann _ entries_there fun q => .inr (.inr (.inl q))⟩
      files := files.2 ⟨fun q => h (.inr (.inr (.inl q))), ann _ entries_there fun q => .inr (.inr (.inr (.inl q)))⟩
      snippets := snippets.2 ⟨fun q => h (.inr (.inr (.inr (.inr (.inl q))))), ann _ entries_there fun q => .inr (.inr (.inr (.inr q)))⟩
      annotations := any_iff.2 (ann _ item_there .inl)
      reviews := reviews.2 (ann _ entries_there fun q => .inr (.inl q))
      relationships := any_iff.2 (rel _ item_there .inl)
      described := described.2 (rel _ entries_there .inr)
      extracted := ⟨he.1, any_iff.2 he.2⟩ }

/-- A call ends with an exception other than `SPDXParsingError` exactly if the tree has not the shape described in `Spec/JsonShape`. -/
theorem uncaught_iff (L : LicText) (j : Json) : C66.Uncaught (parseDocument L j) ↔ ¬ Shaped j := by
  by_cases hob : ∃ o, j = .obj o
  · obtain ⟨o, rfl⟩ := hob
    have h := document L o
    have hs : Shaped (.obj o) ↔ DocumentShape o := ⟨fun ⟨o', e, h⟩ => by cases e; exact h, fun h => ⟨o, rfl, h⟩⟩
    rw [hs, shape_iff, Classical.not_not]
    constructor
    · rintro ⟨e, he, hn⟩
      exact Classical.byContradiction fun n => h.2 n e hn he
    · intro q
      obtain ⟨e, hn, he⟩ := h.1 q
      exact ⟨e, he, hn⟩
  · refine ⟨fun _ ⟨o, e, _⟩ => hob ⟨o, e⟩, fun _ => ?_⟩
    cases j with
    | obj o => exact absurd ⟨o, rfl⟩ hob
    | _ => exact ⟨.other s%"get", rfl, fun ms h => by cases h⟩

/-- The faults of a tree of this shape are reported, all of them in one `SPDXParsingError`. -/
theorem shaped (L : LicText) (j : Json) (h : Shaped j) : (∃ d, parseDocument L j = .ok d) ∨ ∃ ms, parseDocument L j = .error (.parsing ms) := by
  have hn := mt (uncaught_iff L j).1 (not_not_intro h)
  cases hp : parseDocument L j with
  | ok d => exact .inl ⟨d, rfl⟩
  | error e =>
    cases e with
    | parsing ms => exact .inr ⟨ms, rfl⟩
    | _ => exact absurd ⟨_, hp, fun _ e => by cases e⟩ hn

/-! What the writer writes has the shape, valid document or not. -/

private abbrev members (keys : List Str) (vals : List (Option Json)) : Obj := (keys.zip vals).filterMap fun kv => kv.2.map (kv.1, ·)

private theorem at_key (keys : List Str) (vals : List (Option Json)) (nd : keys.Nodup) (i : Nat) {k : Str} {v : Option Json}
    (hk : keys[i]? = some k) (hv : vals[i]? = some v) : (members keys vals).lookup k = v := lookup_mkObj keys vals nd i hk hv

private theorem value_at (keys : List Str) (vals : List (Option Json)) (nd : keys.Nodup) (i : Nat) {k : Str} {v : Option Json}
    (hk : keys[i]? = some k) (hv : vals[i]? = some v) : valueAt (members keys vals) k = v.getD .null := by
  unfold valueAt
  rw [at_key keys vals nd i hk hv]

private theorem no_key (keys : List Str) (vals : List (Option Json)) {k : Str} (hk : k ∉ keys) : (members keys vals).lookup k = none := by
  rw [List.lookup_eq_none_iff]
  intro p hp
  simp only [List.mem_filterMap, Prod.exists, Option.map_eq_some_iff] at hp
  obtain ⟨a, b, hab, x, hx, rfl⟩ := hp
  simp only [bne_iff_ne, ne_eq]
  rintro rfl
  exact hk (List.of_mem_zip hab).1

private theorem items_null {l : List Json} : ¬ Items .null l := by
  rintro (e | ⟨_, e, _⟩ | ⟨_, e, _⟩) <;> cases e

private theorem items_arr {l l' : List Json} (h : Items (.arr l) l') : l' = l := by
  rcases h with e | ⟨_, e, _⟩ | ⟨_, e, _⟩ <;> cases e
  rfl

private theorem objects_orNone {shape : Obj → Prop} {l : List Json} (h : ∀ x ∈ l, ∃ o, x = .obj o ∧ shape o) :
    Objects shape ((orNone l).getD .null) := by
  unfold orNone
  split
  · exact fun _ hl => (items_null hl).elim
  · intro l' hl
    cases items_arr hl
    exact h

private theorem there_orNone {shape : Obj → Prop} {o : Obj} {k : Str} {l : List Json} (hk : o.lookup k = orNone l)
    (h : ∀ x ∈ l, ∃ o, x = .obj o ∧ shape o) : IfThere o k fun v => HasItems v ∧ Objects shape v := by
  intro v hv
  rw [hk] at hv
  have ho := objects_orNone h
  rw [hv] at ho
  unfold orNone at hv
  split at hv
  · cases hv
  · cases hv
    exact ⟨⟨l, .inl rfl⟩, ho⟩

private theorem map_objects {α : Type} (f : α → Json) (h : ∀ a, ∃ o, f a = .obj o) (l : List α) : ∀ x ∈ l.map f, ∃ o, x = .obj o ∧ Any o := by
  intro x hx
  obtain ⟨a, _, rfl⟩ := List.mem_map.1 hx
  obtain ⟨o, ho⟩ := h a
  exact ⟨o, ho, trivial⟩

private theorem mapM_objects {α : Type} {f : α → Option Json} {shape : Obj → Prop} (h : ∀ a j, f a = some j → ∃ o, j = .obj o ∧ shape o) (l : List α) :
    ∀ {js : List Json}, l.mapM f = some js → ∀ x ∈ js, ∃ o, x = .obj o ∧ shape o := by
  induction l with
  | nil => intro js e; cases e; intro x hx; cases hx
  | cons a l ih =>
    intro js e x hx
    rw [List.mapM_cons] at e
    cases ha : f a with
    | none => rw [ha] at e; cases e
    | some j =>
      rw [ha] at e
      cases hl : l.mapM f with
      | none => rw [hl] at e; cases e
      | some js' =>
        rw [hl] at e
        cases e
        rcases List.mem_cons.1 hx with rfl | hx
        · exact h a _ ha
        · exact ih hl x hx

private theorem annotation_object (a : Annotation) (j : Json) (h : annotationToJson a = some j) : ∃ o, j = .obj o ∧ Any o := by
  unfold annotationToJson at h
  cases hd : datetimeToIso a.annotationDate with
  | none => rw [hd] at h; cases h
  | some t =>
    rw [hd] at h
    cases h
    exact ⟨_, rfl, trivial⟩

private theorem annotationsOf_objects {d : Document} {id : Str} {v : Option Json} (h : annotationsOf d id = some v) : Objects Any (v.getD .null) := by
  unfold annotationsOf at h
  cases hm : (d.annotations.filter (fun a => a.spdxId = id)).mapM annotationToJson with
  | none => rw [hm] at h; cases h
  | some js =>
    rw [hm] at h
    cases h
    exact objects_orNone (mapM_objects annotation_object _ hm)

private theorem package_written {L : LicText} {d : Document} (p : Package) (j : Json) (h : packageToJson L d p = some j) : ∃ o, j = .obj o ∧ PackageShape o := by
  unfold packageToJson at h
  cases ha : annotationsOf d p.spdxId with
  | none => rw [ha] at h; cases h
  | some a =>
    rw [ha] at h
    cases hb : dateToJson p.builtDate with
    | none => rw [hb] at h; cases h
    | some b =>
      rw [hb] at h
      cases hr : dateToJson p.releaseDate with
      | none => rw [hr] at h; cases h
      | some r =>
        rw [hr] at h
        cases hv : dateToJson p.validUntilDate with
        | none => rw [hv] at h; cases h
        | some v =>
          rw [hv] at h
          cases h
          refine ⟨members packageKeys _, rfl, ?_, ?_, ?_, ?_⟩
          · rw [value_at _ _ (by decide) 4 rfl rfl]
            exact objects_orNone (map_objects _ (fun _ => ⟨_, rfl⟩) _)
          · rw [value_at _ _ (by decide) 9 rfl rfl]
            exact objects_orNone (map_objects _ (fun _ => ⟨_, rfl⟩) _)
          · rw [value_at _ _ (by decide) 19 rfl rfl]
            cases p.verificationCode with
            | none => exact .inl (.inl rfl)
            | some c => exact .inr ⟨_, rfl⟩
          · rw [value_at _ _ (by decide) 1 rfl rfl]
            exact annotationsOf_objects ha

private theorem file_written {L : LicText} {d : Document} (f : File) (j : Json) (h : fileToJson L d f = some j) : ∃ o, j = .obj o ∧ FileShape o := by
  unfold fileToJson at h
  cases ha : annotationsOf d f.spdxId with
  | none => rw [ha] at h; cases h
  | some a =>
    rw [ha] at h
    cases h
    refine ⟨members fileKeys _, rfl, ?_, ?_⟩
    · rw [value_at _ _ (by decide) 4 rfl rfl]
      exact objects_orNone (map_objects _ (fun _ => ⟨_, rfl⟩) _)
    · rw [value_at _ _ (by decide) 1 rfl rfl]
      exact annotationsOf_objects ha

private theorem snippet_written {L : LicText} {d : Document} (s : Snippet) (j : Json) (h : snippetToJson L d s = some j) : ∃ o, j = .obj o ∧ SnippetShape o := by
  unfold snippetToJson at h
  cases ha : annotationsOf d s.spdxId with
  | none => rw [ha] at h; cases h
  | some a =>
    rw [ha] at h
    cases h
    refine ⟨members snippetKeys _, rfl, ?_⟩
    constructor
    rw [value_at _ _ (by decide) 1 rfl rfl]
    exact annotationsOf_objects ha

private theorem ref_written (r : ExternalDocumentRef) : RefShape (externalDocumentRefToJson r) := by
  refine .inr ⟨members externalDocumentRefKeys _, rfl, ?_⟩
  rw [value_at _ _ (by decide) 2 rfl rfl]
  exact .inr ⟨_, rfl⟩

private theorem written_shaped {L : LicText} {d : Document} {j : Json} (h : documentToJson L d = some j) : Shaped j := by
  unfold documentToJson at h
  cases ha : (d.annotations.filter (fun a => a.spdxId ∉ containedIds d)).mapM annotationToJson with
  | none => rw [ha] at h; cases h
  | some a =>
    rw [ha] at h
    cases hc : creationInfoToJson d.creationInfo with
    | none => rw [hc] at h; cases h
    | some c =>
      rw [hc] at h
      cases hp : d.packages.mapM (packageToJson L d) with
      | none => rw [hp] at h; cases h
      | some ps =>
        rw [hp] at h
        cases hf : d.files.mapM (fileToJson L d) with
        | none => rw [hf] at h; cases h
        | some fs =>
          rw [hf] at h
          cases hs : d.snippets.mapM (snippetToJson L d) with
          | none => rw [hs] at h; cases h
          | some ss =>
            rw [hs] at h
            cases h
            have none_there : ∀ {k : Str} {ok : Json → Prop} {vs : List (Option Json)}, k ∉ documentKeys → IfThere (members documentKeys vs) k ok := by
              intro k ok vs hk v hv
              rw [no_key _ _ hk] at hv
              cases hv
            refine ⟨members documentKeys _, rfl, ?_, ?_, ?_, ?_, ?_, ?_, ?_, ?_, ?_, ?_⟩
            · rw [value_at _ _ (by decide) 3 rfl rfl]
              unfold creationInfoToJson at hc
              cases ht : datetimeToIso d.creationInfo.created with
              | none => rw [ht] at hc; cases hc
              | some t => rw [ht] at hc; cases hc; exact .inr ⟨_, rfl⟩
            · rw [value_at (k := s%"externalDocumentRefs") _ _ (by decide) 5 rfl rfl]
              refine .inr fun l hl x hx => ?_
              unfold orNone at hl
              split at hl
              · exact (items_null hl).elim
              · cases items_arr hl
                obtain ⟨r, _, rfl⟩ := List.mem_map.1 hx
                exact ref_written r
            · exact there_orNone (at_key _ _ (by decide) 10 rfl rfl) (mapM_objects package_written _ hp)
            · exact there_orNone (at_key _ _ (by decide) 11 rfl rfl) (mapM_objects file_written _ hf)
            · exact there_orNone (at_key _ _ (by decide) 12 rfl rfl) (mapM_objects snippet_written _ hs)
            · rw [value_at _ _ (by decide) 1 rfl rfl]
              exact objects_orNone (mapM_objects annotation_object _ ha)
            · exact none_there (by decide)
            · rw [value_at _ _ (by decide) 13 rfl rfl]
              exact objects_orNone (map_objects _ (fun _ => ⟨_, rfl⟩) _)
            · exact none_there (by decide)
            · have ho := objects_orNone (map_objects extractedToJson (fun _ => ⟨_, rfl⟩) d.extractedLicensingInfo)
              rw [value_at _ _ (by decide) 6 rfl rfl]
              refine ⟨?_, ho⟩
              unfold orNone
              split
              · exact .inl (.inl rfl)
              · exact .inr ⟨_, .inl rfl⟩

/-- Reading the tree written for a document ends with a document or with `SPDXParsingError`, whether the document is valid or not. -/
theorem written (L : LicText) (d : Document) (j : Json) (h : documentToJson L d = some j) :
    (∃ d', parseDocument L j = .ok d') ∨ ∃ ms, parseDocument L j = .error (.parsing ms) :=
  shaped L j (written_shaped h)

/-! Examples -/

/-- A file without checksums is written; reading it back ends with `SPDXParsingError`. -/
example (L : LicText) : ∃ j, documentToJson L { Example.doc with files := [{ Example.file with checksums := [] }] } = some j := ⟨_, rfl⟩

/-- A tree with faults of many kinds, all of which are reported. -/
example (L : LicText) : Shaped C24.faultyTree := by
  refine Classical.byContradiction fun n => ?_
  obtain ⟨e, he, hn⟩ := (uncaught_iff L _).2 n
  rw [C24.faultyTree_error] at he
  cases he
  exact hn _ rfl

/-- Every value but null is a fault here, yet a reported one: numbers where lists belong. -/
example (L : LicText) : ∃ ms, parseDocument L (.obj [(s%"annotations", .num 5), (s%"relationships", .bool true),
    (s%"packages", .arr [.obj [(s%"checksums", .num 5), (s%"externalRefs", .bool true), (s%"hasFiles", .num 3)]])]) = .error (.parsing ms) := ⟨_, rfl⟩

/-- `null` where the key could have been left out: `TypeError` -/
theorem null_packages (L : LicText) : C66.Uncaught (parseDocument L (.obj [(s%"packages", .null)])) ∧
    C66.Uncaught (parseDocument L (.obj [(s%"files", .null)])) ∧ C66.Uncaught (parseDocument L (.obj [(s%"snippets", .null)])) ∧
    C66.Uncaught (parseDocument L (.obj [(s%"revieweds", .null)])) ∧ C66.Uncaught (parseDocument L (.obj [(s%"documentDescribes", .null)])) ∧
    ∀ ms, ¬ Shaped (.obj ((s%"packages", .null) :: ms)) :=
  ⟨⟨_, rfl, fun _ e => (by cases e)⟩, ⟨_, rfl, fun _ e => (by cases e)⟩, ⟨_, rfl, fun _ e => (by cases e)⟩, ⟨_, rfl, fun _ e => (by cases e)⟩,
    ⟨_, rfl, fun _ e => (by cases e)⟩, fun ms ⟨o, e, h⟩ => by
      cases e
      obtain ⟨⟨l, hl⟩, _⟩ := h.packages .null rfl
      exact items_null hl⟩

end Spdx.C67
