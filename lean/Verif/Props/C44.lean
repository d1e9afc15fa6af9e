import Verif.Model.Typing
/-
C44: constructing a model object reports every wrongly typed argument, and succeeds only if none is.
-/
namespace Spdx.C44
open Spdx

/-! Specification -/

/-- A value has the declared type; for a list, every item has the declared type. -/
def HasType : Hint → PyVal → Prop
  | .str, v => ∃ s, v = .str s
  | .int, v => (∃ i, v = .int i) ∨ ∃ b, v = .bool b
  | .bool, v => ∃ b, v = .bool b
  | .cls n, v => ∃ id, v = .obj n id
  | .optional h, v => v = .none ∨ HasType h v
  | .or a b, v => HasType a v ∨ HasType b v
  | .list h, v => ∃ l, v = .list l ∧ ∀ x ∈ l, HasType h x
  | .pair a b, v => ∃ x y, v = .tuple [x, y] ∧ HasType a x ∧ HasType b y

/-- No list mixes items of the declared type with others: either all items have it or none. -/
def Uniform : Hint → PyVal → Prop
  | .optional h, v => Uniform h v
  | .or a b, v => Uniform a v ∧ Uniform b v
  | .list h, v => ∀ l, v = .list l → (∀ x ∈ l, Uniform h x) ∧ ((∀ x ∈ l, HasType h x) ∨ ∀ x ∈ l, ¬ HasType h x)
  | .pair a b, v => ∀ x y, v = .tuple [x, y] → Uniform a x ∧ Uniform b y
  | _, _ => True

/-- The value an argument stands for: an omitted list (`None`) is the empty list, where the constructor says so. -/
def given (f : Field) (args : Str → PyVal) : PyVal :=
  match f.listDefault, args f.name with
  | true, .none => .list []
  | _, v => v

/-! Theorems -/

/-- A value of the declared type is always accepted, whichever list items the type checker looks at. -/
theorem accepts_of_type (pick : List PyVal → Nat) (h : Hint) (v : PyVal) (hv : HasType h v) : h.accepts pick v = true := by
  induction h generalizing v with
  | str => obtain ⟨s, rfl⟩ := hv; rfl
  | int => rcases hv with ⟨i, rfl⟩ | ⟨b, rfl⟩ <;> rfl
  | bool => obtain ⟨s, rfl⟩ := hv; rfl
  | cls n => obtain ⟨s, rfl⟩ := hv; simp [Hint.accepts]
  | optional h ih =>
    rcases hv with rfl | hv
    · rfl
    · have := ih v hv
      cases v <;> simp_all [Hint.accepts]
  | or a b iha ihb =>
    rcases hv with hv | hv
    · simp [Hint.accepts, iha v hv]
    · simp [Hint.accepts, ihb v hv]
  | list h ih =>
    obtain ⟨l, rfl, hl⟩ := hv
    simp only [Hint.accepts]
    split
    · rename_i x hx; exact ih x (hl x (List.mem_of_getElem? hx))
    · rfl
  | pair a b iha ihb =>
    obtain ⟨x, y, rfl, hx, hy⟩ := hv
    simp [Hint.accepts, iha x hx, ihb y hy]

/-- Of a value whose lists are not mixed, exactly the values of the declared type are accepted. -/
theorem accepts_iff (pick : List PyVal → Nat) (h : Hint) (v : PyVal) (hu : Uniform h v) : h.accepts pick v = true ↔ HasType h v := by
  refine ⟨fun ha => ?_, accepts_of_type pick h v⟩
  induction h generalizing v with
  | str => cases v <;> simp_all [Hint.accepts, HasType]
  | int => cases v <;> simp_all [Hint.accepts, HasType]
  | bool => cases v <;> simp_all [Hint.accepts, HasType]
  | cls n => cases v <;> simp_all [Hint.accepts, HasType]
  | optional h ih =>
    cases v with
    | none => exact .inl rfl
    | _ => exact .inr (ih _ hu (by simpa only [Hint.accepts] using ha))
  | or a b iha ihb =>
    simp only [Hint.accepts, Bool.or_eq_true] at ha
    exact ha.imp (iha v hu.1) (ihb v hu.2)
  | list h ih =>
    cases v with
    | list l =>
      refine ⟨l, rfl, ?_⟩
      obtain ⟨hx, ht | ht⟩ := hu l rfl
      · exact ht
      · simp only [Hint.accepts] at ha
        split at ha
        · rename_i x hm
          have hm := List.mem_of_getElem? hm
          exact absurd (ih x (hx x hm) ha) (ht x hm)
        · rename_i hm
          rw [List.getElem?_eq_none_iff] at hm
          cases l with
          | nil => simp
          | cons y l => exact absurd hm (Nat.not_le.2 (Nat.mod_lt _ (by simp)))
    | _ => simp [Hint.accepts] at ha
  | pair a b iha ihb =>
    match v, ha with
    | .tuple [x, y], ha =>
      simp only [Hint.accepts, Bool.and_eq_true] at ha
      obtain ⟨h1, h2⟩ := hu x y rfl
      exact ⟨x, y, rfl, iha x h1 ha.1, ihb y h2 ha.2⟩

private theorem fold_eq (pick : List PyVal → Nat) (args : Str → PyVal) (fs : List Field) (obj : Dict Str PyVal) (es : List Str) :
    fs.foldl (setField pick args) (obj, es) =
      (obj.update ((fs.filter fun f => f.hint.accepts pick (given f args)).map fun f => (f.name, given f args)),
       es ++ (fs.filter fun f => !f.hint.accepts pick (given f args)).map (·.name)) := by
  induction fs generalizing obj es with
  | nil => simp [Dict.update]
  | cons f fs ih =>
    have hg : f.effective (args f.name) = given f args := rfl
    rw [List.foldl_cons]
    simp only [setField, hg]
    by_cases h : f.hint.accepts pick (given f args) = true
    · rw [if_pos h, ih]; simp [h, Dict.update]
    · rw [if_neg h, ih]; simp [h]

/-- The constructor fails exactly if some argument is rejected, and then reports each rejected argument, once and in the order of the
    fields. -/
theorem all_reported (pick : List PyVal → Nat) (c : PyClass) (args : Str → PyVal) (es : List Str) :
    constructObject pick c args = .error es ↔
      es ≠ [] ∧ es = (c.fields.filter fun f => !f.hint.accepts pick (given f args)).map (·.name) := by
  unfold constructObject
  rw [fold_eq]
  simp only [List.nil_append]
  generalize (List.filter (fun f => !f.hint.accepts pick (given f args)) c.fields).map (·.name) = l
  cases l with
  | nil => simp
  | cons x l => simp [eq_comm]; rintro rfl; simp

/-- It succeeds exactly if no argument is rejected; the object's attributes are then the arguments. -/
theorem ok_iff (pick : List PyVal → Nat) (c : PyClass) (args : Str → PyVal) (hn : (c.fields.map (·.name)).Nodup) (obj : Dict Str PyVal) :
    constructObject pick c args = .ok obj ↔
      (∀ f ∈ c.fields, f.hint.accepts pick (given f args) = true) ∧ obj = c.fields.map fun f => (f.name, given f args) := by
  unfold constructObject
  rw [fold_eq]
  by_cases h : ∀ f ∈ c.fields, f.hint.accepts pick (given f args) = true
  · have e1 : (c.fields.filter fun f => f.hint.accepts pick (given f args)) = c.fields := List.filter_eq_self.2 h
    have e2 : (c.fields.filter fun f => !f.hint.accepts pick (given f args)) = [] := by
      rw [List.filter_eq_nil_iff]; intro f hf; simp [h f hf]
    rw [e1, e2, Dict.update_fresh [] _ (by simpa [List.map_map, Function.comp_def] using hn) (by simp [Dict.keys])]
    simp only [List.map_nil, List.append_nil, List.nil_append, Except.ok.injEq]
    exact ⟨fun e => ⟨h, e.symm⟩, fun e => e.2.symm⟩
  · have : (c.fields.filter fun f => !f.hint.accepts pick (given f args)) ≠ [] := by
      intro e
      rw [List.filter_eq_nil_iff] at e
      exact h (fun f hf => by simpa using e f hf)
    simp only [List.nil_append]
    generalize he : List.filter (fun f => !f.hint.accepts pick (given f args)) c.fields = l at this
    cases l with
    | nil => exact absurd rfl this
    | cons x l => simp [h]

/-- In the terms of the types: for arguments without mixed lists the constructor succeeds exactly if each has its declared type, and
    otherwise names exactly those that have not. -/
theorem by_type (pick : List PyVal → Nat) (c : PyClass) (args : Str → PyVal) (hn : (c.fields.map (·.name)).Nodup)
    (hu : ∀ f ∈ c.fields, Uniform f.hint (given f args)) :
    match constructObject pick c args with
    | .ok obj => (∀ f ∈ c.fields, HasType f.hint (given f args)) ∧ obj = c.fields.map fun f => (f.name, given f args)
    | .error es => es ≠ [] ∧ es.Sublist (c.fields.map (·.name)) ∧ ∀ n, n ∈ es ↔ ∃ f ∈ c.fields, f.name = n ∧ ¬ HasType f.hint (given f args) := by
  cases h : constructObject pick c args with
  | ok obj =>
    obtain ⟨h1, h2⟩ := (ok_iff pick c args hn obj).1 h
    exact ⟨fun f hf => (accepts_iff pick _ _ (hu f hf)).1 (h1 f hf), h2⟩
  | error es =>
    obtain ⟨h1, rfl⟩ := (all_reported pick c args es).1 h
    refine ⟨h1, List.filter_sublist.map _, fun n => ?_⟩
    simp only [List.mem_map, List.mem_filter, Bool.not_eq_true']
    constructor
    · rintro ⟨f, ⟨hf, ha⟩, rfl⟩
      exact ⟨f, hf, rfl, fun ht => by rw [accepts_of_type pick _ _ ht] at ha; cases ha⟩
    · rintro ⟨f, hf, rfl, ht⟩
      refine ⟨f, ⟨hf, ?_⟩, rfl⟩
      rw [← Bool.not_eq_true]
      exact fun ha => ht ((accepts_iff pick _ _ (hu f hf)).1 ha)

/-- The theorems apply to every class of the data model. -/
theorem fields_distinct : ∀ c ∈ modelClasses, (c.fields.map (·.name)).Nodup := by decide +kernel

/-- Setting a field later is checked the same way: a rejected value leaves the object as it was and yields that field's message. -/
theorem setter_checked (pick : List PyVal → Nat) (f : Field) (obj : Dict Str PyVal) (v : PyVal) (hd : f.listDefault = false) :
    setField pick (fun _ => v) (obj, []) f = if f.hint.accepts pick v then (obj.set f.name v, []) else (obj, [f.name]) := by
  unfold setField Field.effective
  rw [hd]; simp

/-- The fields of each class that must be given. -/
def required : List (Str × List Str) :=
  [(s%"Actor", [s%"actor_type", s%"name"]), (s%"Checksum", [s%"algorithm", s%"value"]),
   (s%"ExternalDocumentRef", [s%"document_ref_id", s%"document_uri", s%"checksum"]),
   (s%"Annotation", [s%"spdx_id", s%"annotation_type", s%"annotator", s%"annotation_date", s%"annotation_comment"]),
   (s%"Relationship", [s%"spdx_element_id", s%"relationship_type", s%"related_spdx_element_id"]),
   (s%"ExtractedLicensingInfo", []), (s%"PackageVerificationCode", [s%"value"]),
   (s%"ExternalPackageRef", [s%"category", s%"reference_type", s%"locator"]),
   (s%"Package", [s%"spdx_id", s%"name", s%"download_location", s%"files_analyzed"]),
   (s%"File", [s%"name", s%"spdx_id", s%"checksums"]), (s%"Snippet", [s%"spdx_id", s%"file_spdx_id", s%"byte_range"]),
   (s%"CreationInfo", [s%"spdx_version", s%"spdx_id", s%"name", s%"document_namespace", s%"creators", s%"created", s%"data_license"]),
   (s%"Document", [s%"creation_info"])]

/-- Exactly these refuse `None`; every other field may be left out. -/
theorem required_fields (pick : List PyVal → Nat) :
    modelClasses.map (fun c => (c.name, (c.fields.filter fun f => !f.hint.accepts pick (f.effective .none)).map (·.name))) = required := rfl

/-- The fields that hold a truth value or numbers, and those that take a text. -/
theorem flag_fields (pick : List PyVal → Nat) (b : Bool) :
    modelClasses.flatMap (fun c => (c.fields.filter fun f => f.hint.accepts pick (.bool b)).map fun f => (c.name, f.name)) =
      [(s%"Package", s%"files_analyzed")] := rfl
theorem range_fields (pick : List PyVal → Nat) (a b : Int) :
    modelClasses.flatMap (fun c => (c.fields.filter fun f => f.hint.accepts pick (.tuple [.int a, .int b])).map fun f => (c.name, f.name)) =
      [(s%"Snippet", s%"byte_range"), (s%"Snippet", s%"line_range")] := rfl
theorem text_fields (pick : List PyVal → Nat) (t : Str) :
    modelClasses.map (fun c => (c.name, (c.fields.filter fun f => f.hint.accepts pick (.str t)).map (·.name))) =
      [(s%"Actor", [s%"name", s%"email"]), (s%"Checksum", [s%"value"]), (s%"ExternalDocumentRef", [s%"document_ref_id", s%"document_uri"]),
       (s%"Annotation", [s%"spdx_id", s%"annotation_comment"]),
       (s%"Relationship", [s%"spdx_element_id", s%"related_spdx_element_id", s%"comment"]),
       (s%"ExtractedLicensingInfo", [s%"license_id", s%"extracted_text", s%"license_name", s%"comment"]),
       (s%"PackageVerificationCode", [s%"value"]), (s%"ExternalPackageRef", [s%"reference_type", s%"locator", s%"comment"]),
       (s%"Package", [s%"spdx_id", s%"name", s%"download_location", s%"version", s%"file_name", s%"homepage", s%"source_info",
         s%"license_comment", s%"copyright_text", s%"summary", s%"description", s%"comment"]),
       (s%"File", [s%"name", s%"spdx_id", s%"license_comment", s%"copyright_text", s%"comment", s%"notice"]),
       (s%"Snippet", [s%"spdx_id", s%"file_spdx_id", s%"license_comment", s%"copyright_text", s%"comment", s%"name"]),
       (s%"CreationInfo", [s%"spdx_version", s%"spdx_id", s%"name", s%"document_namespace", s%"creator_comment", s%"data_license",
         s%"document_comment"]),
       (s%"Document", [])] := rfl

/-- The fields that take `NONE`, and those that take `NOASSERTION`: all the same except for actors and license names, which take only the latter. -/
theorem special_fields (pick : List PyVal → Nat) (i : Nat) :
    modelClasses.flatMap (fun c => (c.fields.filter fun f => f.hint.accepts pick (.obj s%"SpdxNone" i)).map fun f => (c.name, f.name)) =
      [(s%"Relationship", s%"related_spdx_element_id"), (s%"Package", s%"download_location"), (s%"Package", s%"homepage"),
       (s%"Package", s%"license_concluded"), (s%"Package", s%"license_declared"), (s%"Package", s%"copyright_text"),
       (s%"File", s%"license_concluded"), (s%"File", s%"copyright_text"), (s%"Snippet", s%"license_concluded"), (s%"Snippet", s%"copyright_text")] ∧
    (modelClasses.flatMap (fun c => (c.fields.filter fun f => f.hint.accepts pick (.obj s%"SpdxNoAssertion" i) &&
        !f.hint.accepts pick (.obj s%"SpdxNone" i)).map fun f => (c.name, f.name))) =
      [(s%"ExtractedLicensingInfo", s%"license_name"), (s%"Package", s%"supplier"), (s%"Package", s%"originator")] := ⟨rfl, rfl⟩

/-! Cases -/

/-- arguments for a snippet -/
def args (byteRange licenses : PyVal) : Str → PyVal := fun n =>
  if n = s%"spdx_id" ∨ n = s%"file_spdx_id" then .str s%"SPDXRef-x" else if n = s%"byte_range" then byteRange
  else if n = s%"license_info_in_snippet" then licenses else .none

example : constructObject (fun _ => 0) .snippet (args (.tuple [.int 1, .int 2]) .none) =
    .ok (PyClass.snippet.fields.map fun f => (f.name, given f (args (.tuple [.int 1, .int 2]) .none))) := rfl
example : constructObject (fun _ => 0) .snippet (args (.tuple [.int 1]) (.list [.str s%"MIT"])) =
    .error [s%"byte_range", s%"license_info_in_snippet"] := by rfl

/-- A list with a wrong item is accepted if the type checker happens to look at another item. -/
theorem mixed_list_accepted : ∃ pick v, ¬ HasType (.list .str) v ∧ Hint.accepts pick (.list .str) v = true :=
  ⟨fun _ => 0, .list [.str [], .int 1], fun ⟨l, e, h⟩ => (by
    cases e
    obtain ⟨s, hs⟩ := h (.int 1) (by simp)
    cases hs), rfl⟩

end Spdx.C44
