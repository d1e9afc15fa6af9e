import Verif.Model.RdfParser
import Verif.Lemmas.Validation
/- Facts about qualified identifiers and namespace bindings. -/
namespace Spdx
open Spec

theorem startsWith_append (a b : Str) : startsWith (a ++ b) a = true := by simp [startsWith, List.isPrefixOf_iff_prefix]

theorem removePrefix_append (a b : Str) : removePrefix (a ++ b) a = b := by simp [removePrefix, startsWith_append]

theorem fragmentOf_append (a b : Str) (h : '#' ∉ a) : fragmentOf (a ++ s%"#" ++ b) = b := by
  have : ∀ a : Str, '#' ∉ a → (a ++ '#' :: b).dropWhile (· ≠ '#') = '#' :: b := by
    intro a
    induction a with
    | nil => intro _; simp
    | cons c cs ih =>
      intro h
      simp only [List.mem_cons, not_or] at h
      rw [List.cons_append, List.dropWhile_cons, if_pos]
      · exact ih h.2
      · simpa using fun e => h.1 e.symm
  simp only [fragmentOf, List.append_assoc, List.singleton_append]
  rw [this a h]; rfl

theorem idChar_hash : ¬ IdChar '#' := by rw [← isIdChar_iff]; decide +kernel

theorem isNameChar_of_idChar (c : Char) (h : IdChar c) : isNameChar c = true := by
  rw [← isIdChar_iff] at h
  unfold isIdChar at h
  unfold isNameChar isLetterAZ
  simp only [Bool.or_eq_true, beq_iff_eq, decide_eq_true_eq] at h ⊢
  grind

theorem localId_chars {s : Str} (h : LocalId s) : ∀ c ∈ s, isNameChar c = true := by
  obtain ⟨t, -, rfl, ht⟩ := h
  intro c hc
  rcases List.mem_append.1 hc with h | h
  · have : ∀ c ∈ (s%"SPDXRef-" : Str), isNameChar c = true := by decide +kernel
    exact this c h
  · exact isNameChar_of_idChar c (ht c h)

theorem localId_no_hash {s : Str} (h : LocalId s) : '#' ∉ s := fun hm => absurd (localId_chars h _ hm) (by decide +kernel)

theorem docRef_no_hash {s : Str} (h : DocRef s) : '#' ∉ s := by
  obtain ⟨t, -, rfl, ht⟩ := h
  intro hm
  rcases List.mem_append.1 hm with h | h
  · revert h; decide
  · rcases ht _ h with h | h
    · exact idChar_hash h
    · exact absurd h (by decide)

/-- The text before the local name does not matter as long as it ends with `#`. -/
theorem splitUri_append (u loc : Str) (h : LocalId loc) : splitUri (u ++ s%"#" ++ loc) = some (u ++ s%"#", loc) := by
  have hc := localId_chars h
  have hrev : (u ++ s%"#" ++ loc).reverse = loc.reverse ++ '#' :: u.reverse := by
    show (u ++ ['#'] ++ loc).reverse = _
    simp
  have hhash : isNameChar '#' = false := by decide +kernel
  have hd : ∀ l : Str, (∀ c ∈ l, isNameChar c = true) → (l ++ '#' :: u.reverse).dropWhile isNameChar = '#' :: u.reverse := by
    intro l
    induction l with
    | nil => intro _; exact dropWhile_none hhash
    | cons c cs ih =>
      intro hl
      rw [List.cons_append, List.dropWhile_cons, if_pos (hl c (by simp))]
      exact ih fun x hx => hl x (by simp [hx])
  have htk : ∀ l : Str, (∀ c ∈ l, isNameChar c = true) → (l ++ '#' :: u.reverse).takeWhile isNameChar = l := by
    intro l
    induction l with
    | nil => intro _; simp [hhash]
    | cons c cs ih =>
      intro hl
      rw [List.cons_append, List.takeWhile_cons, if_pos (hl c (by simp)), ih fun x hx => hl x (by simp [hx])]
  have hn : nameSuffix (u ++ s%"#" ++ loc) = some (u ++ s%"#", loc) := by
    unfold nameSuffix
    rw [hrev, hd _ (by simpa using hc), htk _ (by simpa using hc), if_neg (by simp)]
    simp
  unfold splitUri
  rw [hn]
  obtain ⟨t, -, rfl, -⟩ := h
  have hS : isNameStart 'S' = true := by decide +kernel
  have e : (s%"SPDXRef-" : Str) ++ t = 'S' :: (s%"PDXRef-" ++ t) := rfl
  have hd : ((s%"SPDXRef-" : Str) ++ t).dropWhile (fun c => !isNameStart c) = s%"SPDXRef-" ++ t := by
    rw [e]; exact dropWhile_none (by simp [hS])
  have ht : ((s%"SPDXRef-" : Str) ++ t).takeWhile (fun c => !isNameStart c) = [] := by
    rw [e]; simp [hS]
  simp only [hd, ht]
  simp only [List.append_nil]
  rfl

theorem addNamespace_local (id ns : Str) (ext : Dict Str Str) (h : LocalId id) : addNamespace id ns ext = ns ++ s%"#" ++ id := by
  unfold addNamespace
  rw [splitOn_none _ _ (localId_no_colon (.inl h))]
  simp only [(internalId_iff id).2 (.inl h), if_true]

theorem addNamespace_external (ref loc ns uri : Str) (ext : Dict Str Str) (h1 : DocRef ref) (h2 : LocalId loc)
    (he : ext.get? ref = some uri) : addNamespace (ref ++ ':' :: loc) ns ext = uri ++ s%"#" ++ loc := by
  unfold addNamespace
  rw [(splitOn_two _ _ _ _).2 ⟨rfl, docRef_no_colon (.inl h1), localId_no_colon (.inl h2)⟩]
  simp only [he]

theorem parseRdfId_local (b : Bindings) (ns id : Str) (hns : '#' ∉ ns) : parseRdfId b ns (.uri (ns ++ s%"#" ++ id)) = some (some id) := by
  unfold parseRdfId
  simp only [RdfNode.text, RdfNode.truthy, startsWith_append, if_true]
  rw [if_neg (by simp), fragmentOf_append _ _ hns]

theorem hash_split {a b c d : Str} (ha : '#' ∉ a) (hc : '#' ∉ c) (h : a ++ '#' :: b = c ++ '#' :: d) : a = c := by
  induction a generalizing c with
  | nil => cases c with
    | nil => rfl
    | cons x xs => simp at h; exact absurd h.1 (by simp at hc; exact hc.1)
  | cons x xs ih => cases c with
    | nil => simp at h; simp [h.1] at ha
    | cons y ys =>
      simp only [List.cons_append, List.cons.injEq] at h
      simp only [List.mem_cons, not_or] at ha hc
      rw [h.1, ih ha.2 hc.2 h.2]

theorem parseRdfId_external (b : Bindings) (ns uri loc ref : Str) (hns : '#' ∉ ns) (hu : '#' ∉ uri) (hne : uri ≠ ns) (hl : LocalId loc)
    (hb : b.prefixOf (uri ++ s%"#") = some ref) : parseRdfId b ns (.uri (uri ++ s%"#" ++ loc)) = some (some (ref ++ ':' :: loc)) := by
  unfold parseRdfId
  simp only [RdfNode.text, RdfNode.truthy]
  have h1 : ¬ startsWith (uri ++ s%"#" ++ loc) (ns ++ s%"#") = true := by
    rw [startsWith_iff]
    rintro ⟨t, h⟩
    refine hne (hash_split (b := loc) (d := t) hu hns ?_)
    simpa using h.symm
  have h0 : ¬ ¬ (!(uri ++ s%"#" ++ loc).isEmpty) = true := by simp
  refine (if_neg h0).trans ((if_neg h1).trans ((if_pos (by simp)).trans ?_))
  unfold normalizeUri
  rw [splitUri_append _ _ hl]
  simp only [hb]
  simp

/-! Bindings -/

/-- Binding the references one after the other, as the reader does. -/
def bindRefs (b : Bindings) (refs : List ExternalDocumentRef) : Bindings :=
  refs.foldl (fun b r => b.bind r.documentRefId (r.documentUri ++ s%"#")) b

theorem nsOf_put (b : Bindings) (p n q : Str) (h : q ≠ p) (hq : b.nsOf q = none) : (b.put p n).nsOf q = none := by
  unfold Bindings.nsOf Bindings.put at *
  have : ∀ b : Bindings, b.lookup q = none → (b.filter (fun e => e.1 ≠ p ∧ e.2 ≠ n) ++ [(p, n)]).lookup q = none := by
    intro b
    induction b with
    | nil => intro _; simp [List.lookup, beq_eq_false_iff_ne.2 h]
    | cons e es ih =>
      intro hl
      obtain ⟨e1, e2⟩ := e
      simp only [List.lookup] at hl
      split at hl
      · simp at hl
      · rename_i hne
        rw [List.filter_cons]
        split
        · simp only [List.cons_append, List.lookup, hne]; exact ih hl
        · exact ih hl
  exact this b hq

theorem prefixOf_put_self (b : Bindings) (p n : Str) : (b.put p n).prefixOf n = some p := by
  unfold Bindings.prefixOf Bindings.put
  rw [List.find?_append]
  have : (b.filter fun e => e.1 ≠ p ∧ e.2 ≠ n).find? (fun e => e.2 = n) = none := by
    rw [List.find?_eq_none]
    intro e he
    have := (List.mem_filter.1 he).2
    simp only [decide_eq_true_eq] at this ⊢
    exact this.2
  rw [this]; simp

theorem prefixOf_put_other (b : Bindings) (p n q m : Str) (hq : q ≠ p) (hm : m ≠ n) (h : b.prefixOf m = some q) :
    (b.put p n).prefixOf m = some q := by
  unfold Bindings.prefixOf Bindings.put at *
  induction b with
  | nil => simp at h
  | cons e es ih =>
    rw [List.find?_cons] at h
    split at h
    · rename_i he
      simp only [decide_eq_true_eq] at he
      simp only [Option.map_some, Option.some.injEq] at h
      rw [List.filter_cons, if_pos (by simp [h, hq, he, hm])]
      simp [he, h]
    · rename_i he
      rw [List.filter_cons]
      split
      · rw [List.cons_append, List.find?_cons, he]; exact ih h
      · exact ih h

theorem bindRefs_spec (refs : List ExternalDocumentRef) (b : Bindings) (h1 : (refs.map (·.documentRefId)).Nodup)
    (h2 : (refs.map (·.documentUri)).Nodup) (h3 : ∀ r ∈ refs, b.nsOf r.documentRefId = none) :
    (∀ r ∈ refs, (bindRefs b refs).prefixOf (r.documentUri ++ s%"#") = some r.documentRefId) ∧
    (∀ m q, b.prefixOf m = some q → (∀ r ∈ refs, q ≠ r.documentRefId ∧ m ≠ r.documentUri ++ s%"#") →
      (bindRefs b refs).prefixOf m = some q) := by
  induction refs generalizing b with
  | nil => exact ⟨by simp, fun m q h _ => h⟩
  | cons r rs ih =>
    simp only [List.map_cons, List.nodup_cons] at h1 h2
    have hb : b.bind r.documentRefId (r.documentUri ++ s%"#") = b.put r.documentRefId (r.documentUri ++ s%"#") := by
      unfold Bindings.bind; rw [h3 r (by simp)]
    have hid : ∀ x ∈ rs, x.documentRefId ≠ r.documentRefId := by
      intro x hx e; exact h1.1 (e ▸ List.mem_map_of_mem hx)
    have huri : ∀ x ∈ rs, x.documentUri ≠ r.documentUri := by
      intro x hx e; exact h2.1 (e ▸ List.mem_map_of_mem hx)
    have key := ih (b.put r.documentRefId (r.documentUri ++ s%"#")) h1.2 h2.2
      (fun x hx => nsOf_put _ _ _ _ (hid x hx) (h3 x (by simp [hx])))
    have ebind : bindRefs b (r :: rs) = bindRefs (b.put r.documentRefId (r.documentUri ++ s%"#")) rs := by
      show rs.foldl _ (b.bind _ _) = _
      rw [hb]; rfl
    rw [ebind]
    have happ : ∀ u v : Str, u ++ (s%"#" : Str) = v ++ s%"#" → u = v := fun u v h => List.append_cancel_right h
    refine ⟨?_, ?_⟩
    · intro x hx
      rcases List.mem_cons.1 hx with rfl | hx
      · refine key.2 _ _ (prefixOf_put_self _ _ _) fun y hy => ⟨(hid y hy).symm, fun e => (huri y hy).symm (happ _ _ e)⟩
      · exact key.1 x hx
    · intro m q hm hr
      have h0 := hr r (by simp)
      exact key.2 m q (prefixOf_put_other _ _ _ _ _ h0.1 h0.2 hm) fun y hy => hr y (by simp [hy])

theorem externalNamespaces_get (refs : List ExternalDocumentRef) (h1 : (refs.map (·.documentRefId)).Nodup) (r : ExternalDocumentRef)
    (hr : r ∈ refs) : (externalNamespaces refs).get? r.documentRefId = some r.documentUri := by
  unfold externalNamespaces
  rw [Dict.update_fresh _ _ (by rw [List.map_map]; exact h1) (by simp [Dict.keys])]
  refine Dict.get?_of_mem _ ?_ _ _ ?_
  · rw [List.nil_append]; show ((refs.map _).map _).Nodup; rw [List.map_map]; exact h1
  · exact List.mem_append_right _ (List.mem_map.2 ⟨r, hr, rfl⟩)

end Spdx
