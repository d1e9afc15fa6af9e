import Verif.Spec.LdMigrated
import Verif.Py.Exacts
/- The conversion of migrated elements, computed. -/
namespace Spdx.LdMigrated
open Spdx Spec.Ld

/-- the key of an attribute -/
def keyOf (a : Str) : Str := match ldKey ('_' :: a) with | .ok k => k | .error _ => []
/-- the tree of a value -/
def val (v : Py3) : Json := match toJsonLd v with | .ok j => j | .error _ => .null
/-- the value can be converted -/
def Fine (v : Py3) : Prop := toJsonLd v = .ok (val v)
/-- the field of an attribute -/
def piece (k : Str) (v : Py3) : List (Str × Json) := if v.truthy then [(k, val v)] else []

theorem fine_of {v : Py3} {j : Json} (h : toJsonLd v = .ok j) : Fine v ∧ val v = j := by
  have : val v = j := by unfold val; rw [h]
  exact ⟨by unfold Fine; rw [this, h], this⟩

theorem attrs_eq (get : Str → Py3) (names : List Str) (hk : ∀ a ∈ names, ldKey ('_' :: a) = .ok (keyOf a))
    (hd : (names.map keyOf).Nodup) (hv : ∀ a ∈ names, (get a).truthy = true → Fine (get a)) (d : Dict Str Json)
    (hf : ∀ a ∈ names, keyOf a ∉ d.keys) :
    toJsonLdAttrs d (names.map fun a => ('_' :: a, get a)) = .ok (d ++ names.flatMap fun a => piece (keyOf a) (get a)) := by
  induction names generalizing d with
  | nil => simp [toJsonLdAttrs]
  | cons a names ih =>
    simp only [List.map_cons, List.nodup_cons] at hd
    rw [List.map_cons, toJsonLdAttrs, List.flatMap_cons]
    have ih := ih (fun a ha => hk a (List.mem_cons_of_mem _ ha)) hd.2 (fun a ha => hv a (List.mem_cons_of_mem _ ha))
    by_cases ht : (get a).truthy = true
    · have h3 := hv a (List.mem_cons_self ..) ht
      have h4 := hk a (List.mem_cons_self ..)
      unfold Fine at h3
      simp only [ht, if_true, h4, h3, piece]
      rw [ih (d.set (keyOf a) (val (get a))) (by
          intro c hc hm
          rw [Dict.mem_keys_set] at hm
          rcases hm with hm | hm
          · exact hd.1 (hm ▸ List.mem_map.2 ⟨c, hc, rfl⟩)
          · exact hf c (List.mem_cons_of_mem _ hc) hm),
        Dict.set_fresh _ _ _ (hf a (List.mem_cons_self ..))]
      simp [piece]
    · simp only [ht, piece]
      exact ih d (fun c hc => hf c (List.mem_cons_of_mem _ hc))

private theorem keys_ok : ∀ c ∈ ldClasses, (∀ a ∈ c.2, ldKey ('_' :: a) = .ok (keyOf a)) ∧ (c.2.map keyOf).Nodup ∧
    ∀ a ∈ c.2, keyOf a ≠ s%"@type" := by decide +kernel

private theorem lookup_mem' {β : Type} (l : List (Str × β)) (a : Str) (v : β) (h : l.lookup a = some v) : (a, v) ∈ l := by
  induction l with
  | nil => cases h
  | cons p l ih =>
    obtain ⟨b, w⟩ := p
    rw [List.lookup_cons] at h
    split at h
    · next hb => rw [eq_of_beq hb]; cases h; exact List.mem_cons_self ..
    · exact List.mem_cons_of_mem _ (ih h)

private theorem default_false (cls a : Str) : (ldDefault cls a).truthy = false := by
  unfold ldDefault
  split
  · rfl
  · split <;> rfl

/-- an instance of a class -/
theorem object_eq (cls : Str) (names : List Str) (given : List (Str × Py3)) (hc : ldClasses.lookup cls = some names)
    (hg : ∀ p ∈ given, Fine p.2) :
    toJsonLd (ldObject cls given) = .ok (.obj ((s%"@type", .str cls) ::
      names.flatMap fun a => piece (keyOf a) ((given.lookup a).getD .none))) := by
  obtain ⟨h1, h2, h3⟩ := keys_ok _ (lookup_mem' _ _ _ hc)
  have := attrs_eq (fun a => (given.lookup a).getD (ldDefault cls a)) names h1 h2 (by
    intro a _ ht
    cases hl : given.lookup a with
    | none =>
      exfalso
      simp only [hl, Option.getD_none, default_false] at ht
      cases ht
    | some v => exact hg _ (lookup_mem' _ _ _ hl)) [(s%"@type", .str cls)] (by
    intro a ha hm
    simp only [Dict.keys, List.map_cons, List.map_nil, List.mem_singleton] at hm
    exact h3 a ha hm)
  have hp : ∀ a, piece (keyOf a) ((given.lookup a).getD (ldDefault cls a)) = piece (keyOf a) ((given.lookup a).getD .none) := by
    intro a
    cases given.lookup a with
    | some v => rfl
    | none => simp only [Option.getD_none, piece, default_false]; rfl
  simp only [hp] at this
  unfold ldObject
  rw [hc, Option.getD_some, toJsonLd.eq_def]
  simp only [Py3.truthy, Bool.true_eq_false, if_false, this]
  rfl

/-! ### Fields -/

theorem fine_str (s : Str) : Fine (.str s) := by
  unfold Fine val; rw [toJsonLd.eq_def]; split <;> rfl
theorem piece_str (k s : Str) : piece k (.str s) = text k s := by
  cases s with
  | nil => rfl
  | cons c s => rfl
theorem fine_none : Fine .none := rfl
theorem piece_none (k : Str) : piece k .none = [] := rfl
theorem fine_opt (o : Option Str) : Fine (optPy o) := by cases o; exacts [fine_none, fine_str _]
theorem piece_opt (k : Str) (o : Option Str) : piece k (optPy o) = opt k o := by cases o; exacts [rfl, piece_str _ _]
theorem fine_int (i : Int) : Fine (.int i) := by
  unfold Fine val; rw [toJsonLd.eq_def]; split <;> rfl
theorem piece_int (k : Str) (i : Int) : piece k (.int i) = num k i := by
  unfold piece num val
  by_cases h : i = 0
  · subst h; rfl
  · rw [toJsonLd.eq_def]
    simp [Py3.truthy, h]
theorem piece_version (k c : Str) : piece k (.version (c)) = [(k, .str c)] := by
  unfold piece val; rw [toJsonLd.eq_def]; rfl

theorem date_eq (d : DateTime) (h : ∃ s, datetimeToIso d = some s) :
    toJsonLd (.datetime d) = .ok (.str ((datetimeToIso d).getD [])) := by
  obtain ⟨s, hs⟩ := h
  rw [toJsonLd.eq_def]
  simp [Py3.truthy, hs]
theorem fine_date (o : Option DateTime) (h : ∀ d ∈ o.toList, ∃ s, datetimeToIso d = some s) : Fine (optDatePy o) := by
  cases o with
  | none => exact fine_none
  | some d => exact (fine_of (date_eq d (h d (by simp)))).1
theorem piece_date (k : Str) (o : Option DateTime) (h : ∀ d ∈ o.toList, ∃ s, datetimeToIso d = some s) :
    piece k (optDatePy o) = date k o := by
  cases o with
  | none => rfl
  | some d =>
    show (if true then [(k, val (.datetime d))] else []) = _
    rw [(fine_of (date_eq d (h d (by simp)))).2]
    rfl

theorem items_str (l : List Str) : toJsonLdItems (l.map .str) = .ok ((l.filter (· ≠ [])).map .str) := by
  induction l with
  | nil => rfl
  | cons s l ih =>
    rw [List.map_cons, toJsonLdItems]
    cases s with
    | nil => exact ih
    | cons c s =>
      rw [toJsonLd.eq_def]
      simp [Py3.truthy, ih]
theorem strs_eq (l : List Str) (h : l ≠ []) : toJsonLd (strsPy l) = .ok (.arr ((l.filter (· ≠ [])).map .str)) := by
  rw [toJsonLd.eq_def]
  unfold strsPy
  simp [Py3.truthy, h, items_str]
theorem fine_strs (l : List Str) : Fine (strsPy l) := by
  by_cases h : l = []
  · subst h; rfl
  · exact (fine_of (strs_eq l h)).1
theorem piece_strs (k : Str) (l : List Str) : piece k (strsPy l) = texts k l := by
  by_cases h : l = []
  · subst h; rfl
  · unfold piece texts
    rw [(fine_of (strs_eq l h)).2, if_neg h, if_pos]
    simp [strsPy, Py3.truthy, h]

theorem items_obj {α : Type} (f : α → Py3) (g : α → Json) (l : List α)
    (h : ∀ a ∈ l, toJsonLd (f a) = .ok (g a) ∧ (f a).truthy = true) : toJsonLdItems (l.map f) = .ok (l.map g) := by
  induction l with
  | nil => rfl
  | cons a l ih =>
    obtain ⟨h1, h2⟩ := h a (List.mem_cons_self ..)
    rw [List.map_cons, toJsonLdItems]
    simp only [h2, if_true, h1, ih (fun b hb => h b (List.mem_cons_of_mem _ hb)), List.map_cons]
theorem objs_eq {α : Type} (f : α → Py3) (g : α → Json) (l : List α)
    (h : ∀ a ∈ l, toJsonLd (f a) = .ok (g a) ∧ (f a).truthy = true) (hl : l ≠ []) : toJsonLd (.list (l.map f)) = .ok (.arr (l.map g)) := by
  rw [toJsonLd.eq_def]
  simp [Py3.truthy, hl, items_obj f g l h]
theorem fine_objs {α : Type} (f : α → Py3) (g : α → Json) (l : List α)
    (h : ∀ a ∈ l, toJsonLd (f a) = .ok (g a) ∧ (f a).truthy = true) : Fine (.list (l.map f)) := by
  by_cases hl : l = []
  · subst hl; rfl
  · exact (fine_of (objs_eq f g l h hl)).1
theorem piece_objs {α : Type} (k : Str) (f : α → Py3) (g : α → Json) (l : List α)
    (h : ∀ a ∈ l, toJsonLd (f a) = .ok (g a) ∧ (f a).truthy = true) : piece k (.list (l.map f)) = objects k g l := by
  by_cases hl : l = []
  · subst hl; rfl
  · unfold piece objects
    rw [(fine_of (objs_eq f g l h hl)).2, if_neg hl, if_pos]
    simp [Py3.truthy, hl]

/-- a name of a member that has an entry in the table -/
def Known (n : Str) : Prop := toJsonLd (.enum n) = .ok (member n)
theorem known (n : Str) (h : n ∈ ldEnumMembers) : Known n := by
  have : ∀ n ∈ ldEnumMembers, snakeToCamel n = some ((ldMembers.lookup n).getD []) := by decide +kernel
  unfold Known
  rw [toJsonLd.eq_def]
  simp [Py3.truthy, this n h, member]
theorem fine_enum (n : Str) (h : n ∈ ldEnumMembers) : Fine (.enum n) := (fine_of (known n h)).1
theorem piece_enum (k n : Str) (h : n ∈ ldEnumMembers) : piece k (.enum n) = [(k, member n)] := by
  show (if true then [(k, val (.enum n))] else []) = _
  rw [(fine_of (known n h)).2]
  rfl
theorem fine_optEnum {α : Type} (name : α → Str) (h : ∀ a, name a ∈ ldEnumMembers) (o : Option α) : Fine (optEnumPy name o) := by
  cases o with
  | none => exact fine_none
  | some a => exact fine_enum _ (h a)
theorem piece_optEnum {α : Type} (k : Str) (name : α → Str) (h : ∀ a, name a ∈ ldEnumMembers) (o : Option α) :
    piece k (optEnumPy name o) = optMember k name o := by
  cases o with
  | none => rfl
  | some a => exact piece_enum _ _ (h a)

theorem fine_obj {v : Py3} {j : Json} (h : toJsonLd v = .ok j) : Fine v := (fine_of h).1
theorem piece_obj (k : Str) {v : Py3} {j : Json} (h : toJsonLd v = .ok j) (ht : v.truthy = true) : piece k v = [(k, j)] := by
  unfold piece
  rw [if_pos ht, (fine_of h).2]

/-! ### Classes -/

theorem hash_eq (h : Hash3) : toJsonLd h.toPy = .ok (hash h) := by
  have hm : h.algorithm.name ∈ ldEnumMembers := by cases h.algorithm <;> decide +kernel
  unfold Hash3.toPy
  rw [object_eq _ _ _ rfl (by
    simp only [List.forall_mem_cons]
    exact ⟨fine_enum _ hm, fine_str _, by simp⟩)]
  show Except.ok (Json.obj (_ :: (piece s%"comment" .none ++ (piece s%"algorithm" (.enum h.algorithm.name) ++
    (piece s%"hashValue" (.str h.hashValue) ++ []))))) = _
  rw [piece_none, piece_enum _ _ hm, piece_str]
  rfl

private theorem fine_cons {a : Str} {v : Py3} {l : List (Str × Py3)} (h : Fine v) (hl : ∀ p ∈ l, Fine p.2) :
    ∀ p ∈ (a, v) :: l, Fine p.2 := by
  intro p hp
  rcases List.mem_cons.1 hp with rfl | hp
  · exact h
  · exact hl p hp
private theorem fine_nil : ∀ p ∈ ([] : List (Str × Py3)), Fine p.2 := by simp

theorem identifier_eq (i : ExternalIdentifier3) : toJsonLd i.toPy = .ok (identifier i) := by
  have hm : i.type.name ∈ ldEnumMembers := by cases i.type <;> decide +kernel
  unfold ExternalIdentifier3.toPy
  rw [object_eq _ _ _ rfl (fine_cons (fine_enum _ hm) (fine_cons (fine_str _) (fine_cons (fine_opt _) fine_nil)))]
  show Except.ok (Json.obj (_ :: (piece s%"externalIdentifierType" (.enum i.type.name) ++ (piece s%"identifier" (.str i.identifier) ++
    (piece s%"comment" (optPy i.comment) ++ ([] ++ ([] ++ []))))))) = _
  rw [piece_enum _ _ hm, piece_str, piece_opt]
  rfl

theorem reference_eq (r : ExternalReference3) : toJsonLd r.toPy = .ok (reference r) := by
  have hm : r.type.name ∈ ldEnumMembers := by cases r.type <;> decide +kernel
  unfold ExternalReference3.toPy
  rw [object_eq _ _ _ rfl (fine_cons (fine_enum _ hm) (fine_cons (fine_strs _) (fine_cons (fine_opt _) fine_nil)))]
  show Except.ok (Json.obj (_ :: (piece s%"externalReferenceType" (.enum r.type.name) ++ (piece s%"locator" (strsPy r.locator) ++
    ([] ++ (piece s%"comment" (optPy r.comment) ++ [])))))) = _
  rw [piece_enum _ _ hm, piece_strs, piece_opt]
  rfl

private theorem profile_eq : toJsonLd (.list [.enum s%"CORE", .enum s%"SOFTWARE", .enum s%"LICENSING"]) =
    .ok (.arr [.str s%"core", .str s%"software", .str s%"licensing"]) := by
  rw [toJsonLd.eq_def]
  have h1 := known s%"CORE" (by decide +kernel)
  have h2 := known s%"SOFTWARE" (by decide +kernel)
  have h3 := known s%"LICENSING" (by decide +kernel)
  unfold Known at h1 h2 h3
  simp only [toJsonLdItems, h1, h2, h3]
  rfl

theorem info_eq (c : CreationInfo3) (h : ∃ s, datetimeToIso c.created = some s) : toJsonLd c.toPy = .ok (info c) := by
  have hd : ∀ d ∈ (some c.created).toList, ∃ s, datetimeToIso d = some s := by simpa using h
  unfold CreationInfo3.toPy
  rw [object_eq _ _ _ rfl (fine_cons (show toJsonLd (.version s%"3.0.0") = _ by rw [toJsonLd.eq_def]; rfl)
    (fine_cons (show Fine (.datetime c.created) from fine_date (some _) hd) (fine_cons (fine_strs _) (fine_cons (fine_obj profile_eq) (fine_cons (fine_str _)
      (fine_cons (fine_strs _) fine_nil))))))]
  show Except.ok (Json.obj (_ :: (piece s%"specVersion" (.version s%"3.0.0") ++ (piece s%"created" (optDatePy (some c.created)) ++
    (piece s%"createdBy" (strsPy c.createdBy) ++ (piece s%"profile" (.list [.enum s%"CORE", .enum s%"SOFTWARE", .enum s%"LICENSING"]) ++
    (piece s%"dataLicense" (.str c.dataLicense) ++ (piece s%"createdUsing" (strsPy c.createdUsing) ++ ([] ++ [])))))))) ) = _
  rw [piece_version, piece_date _ _ hd, piece_strs, piece_strs, piece_obj _ profile_eq rfl, piece_str]
  rfl

theorem namespaceMap_eq (m : NamespaceMap3) : toJsonLd m.toPy = .ok (namespaceMap m) := by
  unfold NamespaceMap3.toPy
  rw [object_eq _ _ _ rfl (fine_cons (fine_str _) (fine_cons (fine_str _) fine_nil))]
  show Except.ok (Json.obj (_ :: (piece s%"prefix" (.str m.nsPrefix) ++ (piece s%"namespace" (.str m.namespaceIri) ++ [])))) = _
  rw [piece_str, piece_str]
  rfl

theorem range_eq (r : Int × Int) : toJsonLd (rangePy r) = .ok (range r) := by
  unfold rangePy
  rw [object_eq _ _ _ rfl (fine_cons (fine_int _) (fine_cons (fine_int _) fine_nil))]
  show Except.ok (Json.obj (_ :: (piece s%"begin" (.int r.1) ++ (piece s%"end" (.int r.2) ++ [])))) = _
  rw [piece_int, piece_int]
  rfl

private theorem hashes (l : List Hash3) : ∀ h ∈ l, toJsonLd h.toPy = .ok (hash h) ∧ h.toPy.truthy = true := fun h _ => ⟨hash_eq h, rfl⟩
private theorem identifiers (l : List ExternalIdentifier3) : ∀ h ∈ l, toJsonLd h.toPy = .ok (identifier h) ∧ h.toPy.truthy = true :=
  fun h _ => ⟨identifier_eq h, rfl⟩
private theorem references (l : List ExternalReference3) : ∀ h ∈ l, toJsonLd h.toPy = .ok (reference h) ∧ h.toPy.truthy = true :=
  fun h _ => ⟨reference_eq h, rfl⟩

theorem externalMap_eq (m : ExternalMap3) : toJsonLd m.toPy = .ok (externalMap m) := by
  unfold ExternalMap3.toPy
  rw [object_eq _ _ _ rfl (fine_cons (fine_str _) (fine_cons (fine_objs _ _ _ (hashes _)) (fine_cons (fine_opt _) fine_nil)))]
  show Except.ok (Json.obj (_ :: (piece s%"externalId" (.str m.externalId) ++ (piece s%"verifiedUsing" (.list (m.verifiedUsing.map Hash3.toPy)) ++
    ([] ++ (piece s%"definingDocument" (optPy m.definingDocument) ++ [])))))) = _
  rw [piece_str, piece_objs _ _ _ _ (hashes _), piece_opt]
  rfl

private theorem maps (l : List ExternalMap3) : ∀ h ∈ l, toJsonLd h.toPy = .ok (externalMap h) ∧ h.toPy.truthy = true :=
  fun h _ => ⟨externalMap_eq h, rfl⟩
private theorem namespaces (l : List NamespaceMap3) : ∀ h ∈ l, toJsonLd h.toPy = .ok (namespaceMap h) ∧ h.toPy.truthy = true :=
  fun h _ => ⟨namespaceMap_eq h, rfl⟩

/-! ### Elements -/

theorem optInfo_eq (c : CreationInfo3) (h : ∀ d ∈ (some c).toList.map (·.created), ∃ s, datetimeToIso d = some s) :
    toJsonLd (optInfoPy (some c)) = .ok (info c) := info_eq c (h _ (by simp))
theorem fine_optInfo (c : Option CreationInfo3) (h : ∀ d ∈ c.toList.map (·.created), ∃ s, datetimeToIso d = some s) : Fine (optInfoPy c) := by
  cases c with
  | none => exact fine_none
  | some c => exact fine_obj (optInfo_eq c h)
theorem piece_optInfo (k : Str) (c : Option CreationInfo3) (h : ∀ d ∈ c.toList.map (·.created), ∃ s, datetimeToIso d = some s) :
    piece k (optInfoPy c) = optObject k info c := by
  cases c with
  | none => rfl
  | some c => exact piece_obj k (optInfo_eq c h) rfl
theorem fine_optRange (r : Option (Int × Int)) : Fine (optRangePy r) := by
  cases r with
  | none => exact fine_none
  | some r => exact fine_obj (range_eq r)
theorem piece_optRange (k : Str) (r : Option (Int × Int)) :
    piece k (optRangePy r) = optObject k range r := by
  cases r with
  | none => rfl
  | some r => exact piece_obj k (range_eq r) rfl

theorem document_eq (d : SpdxDocument3) (h : ∃ s, datetimeToIso d.creationInfo.created = some s) : toJsonLd (Element3.document d).toPy = .ok (element (.document d)) := by
  refine (object_eq s%"SpdxDocument" _ _ rfl (fine_cons (fine_str _) (fine_cons (fine_str _) (fine_cons (fine_strs _) (fine_cons (fine_strs _) (fine_cons (fine_obj
    (info_eq _ h)) (fine_cons (fine_opt _) (fine_cons (fine_objs _ _ _ (namespaces _)) (fine_cons (fine_objs _ _ _ (maps _))
    fine_nil))))))))).trans ?_
  show Except.ok (Json.obj (_ :: (piece s%"@id" (.str d.spdxId) ++ (piece s%"creationInfo" (d.creationInfo.toPy) ++ (piece s%"name" (.str d.name) ++ ([] ++ ([]
    ++ (piece s%"comment" (optPy d.comment) ++ ([] ++ ([] ++ ([] ++ ([] ++ (piece s%"element" (strsPy d.element) ++ (piece
    s%"rootElement" (strsPy d.rootElement) ++ (piece s%"namespaces" (.list (d.namespaces.map NamespaceMap3.toPy)) ++ (piece
    s%"imports" (.list (d.imports.map ExternalMap3.toPy)) ++ ([] ++ []))))))))))))))))) = _
  rw [piece_str, piece_obj _ (info_eq _ h) rfl, piece_str, piece_opt, piece_strs, piece_strs, piece_objs _ _ _ _ (namespaces _),
    piece_objs _ _ _ _ (maps _)]
  rfl

theorem agent_eq_Person (i n : Str) (c : Option CreationInfo3) (x : List ExternalIdentifier3) (h : ∀ d ∈ c.toList.map (·.created), ∃ s, datetimeToIso d = some s) : toJsonLd (Element3.agent ⟨.PERSON, i, c, n, x⟩).toPy = .ok (element (.agent ⟨.PERSON, i, c, n, x⟩)) := by
  refine (object_eq s%"Person" _ _ rfl (fine_cons (fine_str _) (fine_cons (fine_optInfo _ h) (fine_cons (fine_str _) (fine_cons (fine_objs _ _ _ (identifiers _))
    fine_nil))))).trans ?_
  show Except.ok (Json.obj (_ :: (piece s%"@id" (.str i) ++ (piece s%"creationInfo" (optInfoPy c) ++ (piece s%"name" (.str n) ++ ([] ++ ([] ++ ([] ++ ([] ++
    ([] ++ (piece s%"externalIdentifier" (.list (x.map ExternalIdentifier3.toPy)) ++ ([] ++ [])))))))))))) = _
  rw [piece_str, piece_optInfo _ _ h, piece_str, piece_objs _ _ _ _ (identifiers _)]
  rfl

theorem agent_eq_Organization (i n : Str) (c : Option CreationInfo3) (x : List ExternalIdentifier3) (h : ∀ d ∈ c.toList.map (·.created), ∃ s, datetimeToIso d = some s) : toJsonLd (Element3.agent ⟨.ORGANIZATION, i, c, n, x⟩).toPy = .ok (element (.agent ⟨.ORGANIZATION, i, c, n, x⟩)) := by
  refine (object_eq s%"Organization" _ _ rfl (fine_cons (fine_str _) (fine_cons (fine_optInfo _ h) (fine_cons (fine_str _) (fine_cons (fine_objs _ _ _ (identifiers _))
    fine_nil))))).trans ?_
  show Except.ok (Json.obj (_ :: (piece s%"@id" (.str i) ++ (piece s%"creationInfo" (optInfoPy c) ++ (piece s%"name" (.str n) ++ ([] ++ ([] ++ ([] ++ ([] ++
    ([] ++ (piece s%"externalIdentifier" (.list (x.map ExternalIdentifier3.toPy)) ++ ([] ++ [])))))))))))) = _
  rw [piece_str, piece_optInfo _ _ h, piece_str, piece_objs _ _ _ _ (identifiers _)]
  rfl

theorem agent_eq_Tool (i n : Str) (c : Option CreationInfo3) (x : List ExternalIdentifier3) (h : ∀ d ∈ c.toList.map (·.created), ∃ s, datetimeToIso d = some s) : toJsonLd (Element3.agent ⟨.TOOL, i, c, n, x⟩).toPy = .ok (element (.agent ⟨.TOOL, i, c, n, x⟩)) := by
  refine (object_eq s%"Tool" _ _ rfl (fine_cons (fine_str _) (fine_cons (fine_optInfo _ h) (fine_cons (fine_str _) (fine_cons (fine_objs _ _ _ (identifiers _))
    fine_nil))))).trans ?_
  show Except.ok (Json.obj (_ :: (piece s%"@id" (.str i) ++ (piece s%"creationInfo" (optInfoPy c) ++ (piece s%"name" (.str n) ++ ([] ++ ([] ++ ([] ++ ([] ++
    ([] ++ (piece s%"externalIdentifier" (.list (x.map ExternalIdentifier3.toPy)) ++ ([] ++ [])))))))))))) = _
  rw [piece_str, piece_optInfo _ _ h, piece_str, piece_objs _ _ _ _ (identifiers _)]
  rfl

theorem package_eq (p : Package3) (h : ∀ d ∈ dates (.package p), ∃ s, datetimeToIso d = some s) : toJsonLd (Element3.package p).toPy = .ok (element (.package p)) := by
  simp only [dates, List.mem_append] at h
  have h1 := fun d hd => h d (.inl (.inl hd))
  have h2 := fun d hd => h d (.inl (.inr hd))
  have h3 := fun d hd => h d (.inr hd)
  have hp : ∀ t : PackagePurpose, t.name ∈ ldEnumMembers := by intro t; cases t <;> decide +kernel
  refine (object_eq s%"Package" _ _ rfl (fine_cons (fine_str _) (fine_cons (fine_str _) (fine_cons (fine_opt _) (fine_cons (fine_opt _) (fine_cons (fine_opt _)
    (fine_cons (fine_objs _ _ _ (hashes _)) (fine_cons (fine_objs _ _ _ (references _)) (fine_cons (fine_objs _ _ _ (identifiers
    _)) (fine_cons (fine_strs _) (fine_cons (fine_strs _) (fine_cons (fine_date _ h1) (fine_cons (fine_date _ h2) (fine_cons
    (fine_date _ h3) (fine_cons (fine_optEnum _ hp _) (fine_cons (fine_opt _) (fine_cons (fine_opt _) (fine_cons (fine_opt _)
    (fine_cons (fine_opt _) (fine_cons (fine_opt _) (fine_cons (fine_opt _) (fine_cons (fine_str _) fine_nil)))))))))))))))))))))).trans ?_
  show Except.ok (Json.obj (_ :: (piece s%"@id" (.str p.spdxId) ++ ([] ++ (piece s%"name" (.str p.name) ++ (piece s%"summary" (optPy p.summary) ++ (piece
    s%"description" (optPy p.description) ++ (piece s%"comment" (optPy p.comment) ++ (piece s%"verifiedUsing" (.list
    (p.verifiedUsing.map Hash3.toPy)) ++ (piece s%"externalReference" (.list (p.externalReference.map ExternalReference3.toPy)) ++
    (piece s%"externalIdentifier" (.list (p.externalIdentifier.map ExternalIdentifier3.toPy)) ++ ([] ++ (piece s%"originatedBy"
    (strsPy p.originatedBy) ++ (piece s%"suppliedBy" (strsPy p.suppliedBy) ++ (piece s%"builtTime" (optDatePy p.builtTime) ++
    (piece s%"releaseTime" (optDatePy p.releaseTime) ++ (piece s%"validUntilTime" (optDatePy p.validUntilTime) ++ ([] ++ ([] ++
    (piece s%"primaryPurpose" (optEnumPy PackagePurpose.name p.primaryPurpose) ++ ([] ++ ([] ++ ([] ++ (piece s%"copyrightText"
    (optPy p.copyrightText) ++ (piece s%"attributionText" (.str p.attributionText) ++ (piece s%"packageVersion" (optPy
    p.packageVersion) ++ (piece s%"downloadLocation" (optPy p.downloadLocation) ++ (piece s%"packageUrl" (optPy p.packageUrl) ++
    (piece s%"homepage" (optPy p.homepage) ++ (piece s%"sourceInfo" (optPy p.sourceInfo) ++ [])))))))))))))))))))))))))))))) = _
  rw [piece_str, piece_str, piece_opt, piece_opt, piece_opt, piece_objs _ _ _ _ (hashes _), piece_objs _ _ _ _ (references _),
    piece_objs _ _ _ _ (identifiers _), piece_strs, piece_strs, piece_date _ _ h1, piece_date _ _ h2, piece_date _ _ h3,
    piece_optEnum _ _ hp, piece_opt, piece_str, piece_opt, piece_opt, piece_opt, piece_opt, piece_opt]
  rfl

theorem file_eq (f : File3) : toJsonLd (Element3.file f).toPy = .ok (element (.file f)) := by
  refine (object_eq s%"File" _ _ rfl (fine_cons (fine_str _) (fine_cons (fine_str _) (fine_cons (fine_opt _) (fine_cons (fine_objs _ _ _ (hashes _)) (fine_cons
    (fine_opt _) (fine_cons (fine_str _) fine_nil))))))).trans ?_
  show Except.ok (Json.obj (_ :: (piece s%"@id" (.str f.spdxId) ++ ([] ++ (piece s%"name" (.str f.name) ++ ([] ++ ([] ++ (piece s%"comment" (optPy f.comment)
    ++ (piece s%"verifiedUsing" (.list (f.verifiedUsing.map Hash3.toPy)) ++ ([] ++ ([] ++ ([] ++ ([] ++ ([] ++ ([] ++ ([] ++ ([]
    ++ ([] ++ ([] ++ ([] ++ ([] ++ ([] ++ ([] ++ (piece s%"copyrightText" (optPy f.copyrightText) ++ (piece s%"attributionText"
    (.str f.attributionText) ++ ([] ++ [])))))))))))))))))))))))))) = _
  rw [piece_str, piece_str, piece_opt, piece_objs _ _ _ _ (hashes _), piece_opt, piece_str]
  rfl

theorem snippet_eq (f : Snippet3) : toJsonLd (Element3.snippet f).toPy = .ok (element (.snippet f)) := by
  refine (object_eq s%"Snippet" _ _ rfl (fine_cons (fine_str _) (fine_cons (fine_opt _) (fine_cons (fine_opt _) (fine_cons (fine_obj (range_eq _)) (fine_cons
    (fine_optRange _) (fine_cons (fine_opt _) (fine_cons (fine_str _) fine_nil)))))))).trans ?_
  show Except.ok (Json.obj (_ :: (piece s%"@id" (.str f.spdxId) ++ ([] ++ (piece s%"name" (optPy f.name) ++ ([] ++ ([] ++ (piece s%"comment" (optPy f.comment)
    ++ ([] ++ ([] ++ ([] ++ ([] ++ ([] ++ ([] ++ ([] ++ ([] ++ ([] ++ ([] ++ ([] ++ ([] ++ ([] ++ ([] ++ ([] ++ (piece
    s%"copyrightText" (optPy f.copyrightText) ++ (piece s%"attributionText" (.str f.attributionText) ++ (piece s%"byteRange"
    (rangePy f.byteRange) ++ (piece s%"lineRange" (optRangePy f.lineRange) ++ []))))))))))))))))))))))))))) = _
  rw [piece_str, piece_opt, piece_opt, piece_opt, piece_str, piece_obj _ (range_eq _) rfl, piece_optRange]
  rfl

theorem relationship_eq (r : Relationship3) : toJsonLd (ldObject s%"Relationship" r.given) = .ok (element (.relationship { r with software := none })) := by
  have ht : r.relationshipType.name ∈ ldEnumMembers := by cases r.relationshipType <;> decide +kernel
  have hc : ∀ t : Completeness, t.name ∈ ldEnumMembers := by intro t; cases t <;> decide +kernel
  refine (object_eq s%"Relationship" _ _ rfl (fine_cons (fine_str _) (fine_cons (fine_str _) (fine_cons (fine_enum _ ht) (fine_cons (fine_strs _) (fine_cons (fine_opt _)
    (fine_cons (fine_optEnum _ hc _) fine_nil))))))).trans ?_
  show Except.ok (Json.obj (_ :: (piece s%"@id" (.str r.spdxId) ++ ([] ++ ([] ++ ([] ++ ([] ++ (piece s%"comment" (optPy r.comment) ++ ([] ++ ([] ++ ([] ++ ([]
    ++ (piece s%"from" (.str r.fromElement) ++ (piece s%"to" (strsPy r.to) ++ (piece s%"relationshipType" (.enum
    r.relationshipType.name) ++ (piece s%"completeness" (optEnumPy Completeness.name r.completeness) ++ ([] ++ ([] ++
    [])))))))))))))))))) = _
  rw [piece_str, piece_opt, piece_str, piece_strs, piece_enum _ _ ht, piece_optEnum _ _ hc]
  rfl

theorem dependency_eq (r : Relationship3) (s : Option Scope) (l : Option Linkage) (c : Option Conditionality) : toJsonLd (ldObject s%"SoftwareDependencyRelationship" (r.given ++ [(s%"scope", optEnumPy Scope.name s), (s%"software_linkage", optEnumPy Linkage.name l), (s%"conditionality", optEnumPy Conditionality.name c)])) = .ok (element (.relationship { r with software := some (s, l, c) })) := by
  have ht : r.relationshipType.name ∈ ldEnumMembers := by cases r.relationshipType <;> decide +kernel
  have hc : ∀ t : Completeness, t.name ∈ ldEnumMembers := by intro t; cases t <;> decide +kernel
  have hs : ∀ t : Scope, t.name ∈ ldEnumMembers := by intro t; cases t <;> decide +kernel
  have hl : ∀ t : Linkage, t.name ∈ ldEnumMembers := by intro t; cases t <;> decide +kernel
  have hd : ∀ t : Conditionality, t.name ∈ ldEnumMembers := by intro t; cases t <;> decide +kernel
  refine (object_eq s%"SoftwareDependencyRelationship" _ _ rfl (fine_cons (fine_str _) (fine_cons (fine_str _) (fine_cons (fine_enum _ ht) (fine_cons (fine_strs _) (fine_cons (fine_opt _)
    (fine_cons (fine_optEnum _ hc _) (fine_cons (fine_optEnum _ hs _) (fine_cons (fine_optEnum _ hl _) (fine_cons (fine_optEnum _
    hd _) fine_nil)))))))))).trans ?_
  show Except.ok (Json.obj (_ :: (piece s%"@id" (.str r.spdxId) ++ ([] ++ ([] ++ ([] ++ ([] ++ (piece s%"comment" (optPy r.comment) ++ ([] ++ ([] ++ ([] ++ ([]
    ++ (piece s%"from" (.str r.fromElement) ++ (piece s%"to" (strsPy r.to) ++ (piece s%"relationshipType" (.enum
    r.relationshipType.name) ++ (piece s%"completeness" (optEnumPy Completeness.name r.completeness) ++ ([] ++ ([] ++ (piece
    s%"scope" (optEnumPy Scope.name s) ++ (piece s%"softwareLinkage" (optEnumPy Linkage.name l) ++ (piece s%"conditionality"
    (optEnumPy Conditionality.name c) ++ []))))))))))))))))))))) = _
  rw [piece_str, piece_opt, piece_str, piece_strs, piece_enum _ _ ht, piece_optEnum _ _ hc, piece_optEnum _ _ hs, piece_optEnum _ _
    hl, piece_optEnum _ _ hd]
  rfl

theorem annotation_eq (a : Annotation3) (h : ∃ s, datetimeToIso a.creationInfo.created = some s) : toJsonLd (Element3.annotation a).toPy = .ok (element (.annotation a)) := by
  have ht : a.annotationType.name ∈ ldEnumMembers := by cases a.annotationType <;> decide +kernel
  refine (object_eq s%"Annotation" _ _ rfl (fine_cons (fine_str _) (fine_cons (fine_enum _ ht) (fine_cons (fine_str _) (fine_cons (fine_obj (info_eq _ h)) (fine_cons
    (fine_str _) fine_nil)))))).trans ?_
  show Except.ok (Json.obj (_ :: (piece s%"@id" (.str a.spdxId) ++ (piece s%"creationInfo" (a.creationInfo.toPy) ++ ([] ++ ([] ++ ([] ++ ([] ++ ([] ++ ([] ++
    ([] ++ ([] ++ (piece s%"annotationType" (.enum a.annotationType.name) ++ (piece s%"subject" (.str a.subject) ++ ([] ++ (piece
    s%"statement" (.str a.statement) ++ [])))))))))))))))) = _
  rw [piece_str, piece_obj _ (info_eq _ h) rfl, piece_enum _ _ ht, piece_str, piece_str]
  rfl

/-- Every element is converted to its object. -/
theorem element_eq (e : Element3) (h : ∀ d ∈ dates e, ∃ s, datetimeToIso d = some s) : toJsonLd e.toPy = .ok (element e) := by
  cases e with
  | document d => exact document_eq d (h _ (List.mem_singleton.2 rfl))
  | agent a =>
    obtain ⟨k, i, c, n, x⟩ := a
    cases k
    · exact agent_eq_Person i n c x h
    · exact agent_eq_Organization i n c x h
    · exact agent_eq_Tool i n c x h
  | package p => exact package_eq p h
  | file f => exact file_eq f
  | snippet s => exact snippet_eq s
  | relationship r =>
    obtain ⟨i, f, t, to, c, k, s⟩ := r
    cases s with
    | none => exact relationship_eq ⟨i, f, t, to, c, k, none⟩
    | some s =>
      obtain ⟨a, b, d⟩ := s
      exact dependency_eq ⟨i, f, t, to, c, k, none⟩ a b d
  | annotation a => exact annotation_eq a (h _ (List.mem_singleton.2 rfl))

theorem payload_eq (l : List Element3) (h : ∀ e ∈ l, ∀ d ∈ dates e, ∃ s, datetimeToIso d = some s) :
    payloadToJsonLd (l.map Element3.toPy) = .ok (l.map element) := by
  induction l with
  | nil => rfl
  | cons e l ih =>
    rw [List.map_cons, payloadToJsonLd]
    simp only [element_eq e (h e (List.mem_cons_self ..)), ih (fun e he => h e (List.mem_cons_of_mem _ he)), List.map_cons]

end Spdx.LdMigrated
