import Verif.Spec.Reordered
import Verif.Props.C32
import Verif.Spec.Example
/-
C89: The order of packages, files and snippets makes no difference to the migrated document but for the order in lists.
-/
namespace Spdx.C89
open Spec (Reordered AlikeElements AlikePayloads packageActors)

/-! ## Steps in another order -/

private theorem perm_fold {S X E : Type} (f : S → X → Except E S) (R : S → S → Prop) (hr : ∀ s, R s s) (ht : ∀ {a b c}, R a b → R b c → R a c)
    (A : X → X → Prop) (hs : ∀ {x y}, A x y → A y x)
    (hc : ∀ {s s' x t}, R s s' → f s x = .ok t → ∃ t', f s' x = .ok t' ∧ R t t')
    (hx : ∀ {s t u x y}, A x y → f s x = .ok t → f t y = .ok u → ∃ t' u', f s y = .ok t' ∧ f t' x = .ok u' ∧ R u u')
    {l l' : List X} (hl : l.Perm l') : l.Pairwise A → ∀ {s s' t}, R s s' → l.foldlM f s = .ok t → ∃ t', l'.foldlM f s' = .ok t' ∧ R t t' := by
  have same : ∀ (l : List X) {s s' t}, R s s' → l.foldlM f s = .ok t → ∃ t', l.foldlM f s' = .ok t' ∧ R t t' := by
    intro l
    induction l with
    | nil =>
      intro s s' t h e
      cases e
      exact ⟨s', rfl, h⟩
    | cons x l ih =>
      intro s s' t h e
      rw [List.foldlM_cons] at e
      cases h1 : f s x with
      | error _ => rw [h1] at e; cases e
      | ok a =>
        rw [h1] at e
        obtain ⟨a', h2, h3⟩ := hc h h1
        obtain ⟨t', h4, h5⟩ := ih h3 e
        refine ⟨t', ?_, h5⟩
        rw [List.foldlM_cons, h2]
        exact h4
  induction hl with
  | nil => intro _ s s' t h e; exact same [] h e
  | @cons x l l' _ ih =>
    intro hp s s' t h e
    rw [List.foldlM_cons] at e
    cases h1 : f s x with
    | error _ => rw [h1] at e; cases e
    | ok a =>
      rw [h1] at e
      obtain ⟨a', h2, h3⟩ := hc h h1
      obtain ⟨t', h4, h5⟩ := ih (List.pairwise_cons.1 hp).2 h3 e
      refine ⟨t', ?_, h5⟩
      rw [List.foldlM_cons, h2]
      exact h4
  | @swap x y l =>
    intro hp s s' t h e
    have hxy : A y x := (List.pairwise_cons.1 hp).1 x List.mem_cons_self
    rw [List.foldlM_cons] at e
    cases h1 : f s y with
    | error _ => rw [h1] at e; cases e
    | ok a =>
      rw [h1] at e
      have e' : (x :: l).foldlM f a = .ok t := e
      rw [List.foldlM_cons] at e'
      cases h2 : f a x with
      | error _ => rw [h2] at e'; cases e'
      | ok b =>
        rw [h2] at e'
        have e'' : l.foldlM f b = .ok t := e'
        obtain ⟨c, u, h3, h4, h5⟩ := hx hxy h1 h2
        obtain ⟨c', h6, h7⟩ := hc h h3
        obtain ⟨u', h8, h9⟩ := hc h7 h4
        obtain ⟨t', h10, h11⟩ := same l (ht h5 h9) e''
        refine ⟨t', ?_, h11⟩
        rw [List.foldlM_cons, h6]
        show (y :: l).foldlM f c' = _
        rw [List.foldlM_cons, h8]
        exact h10
  | trans h1 _ ih1 ih2 =>
    intro hp s s' t h e
    obtain ⟨a, h3, h4⟩ := ih1 hp h e
    obtain ⟨b, h5, h6⟩ := ih2 (h1.pairwise hp hs) (hr s') h3
    exact ⟨b, h5, ht h4 h6⟩

/-- The same elements, and the same imports in some order. -/
private structure Like (s s' : BumpState) : Prop where
  get : ∀ k, s.payload.get? k = s'.payload.get? k
  imports : s.imports.Perm s'.imports

private theorem like_refl (s : BumpState) : Like s s := ⟨fun _ => rfl, .refl _⟩
private theorem like_trans {a b c : BumpState} (h : Like a b) (h' : Like b c) : Like a c :=
  ⟨fun k => (h.get k).trans (h'.get k), h.imports.trans h'.imports⟩

private theorem actor_get (ns : Str) (ci : Option CreationInfo3) (a : Actor) (p : Payload) (k : Str) :
    (bumpActor ns ci a p).get? k = (p.get? k).or (if actorId ns a = k then some (.agent (bumpedActor ns ci a)) else none) := by
  unfold bumpActor
  split
  · rename_i h
    split
    · rename_i hk
      subst hk
      rw [← Dict.get?_isSome, Option.isSome_iff_exists] at h
      obtain ⟨e, he⟩ := h
      rw [he]; rfl
    · simp
  · rename_i h
    rw [Payload.get?_add]
    have hid : (Element3.agent (bumpedActor ns ci a)).spdxId = actorId ns a := rfl
    rw [hid]
    split
    · rename_i hk
      subst hk
      have : p.get? (actorId ns a) = none := by
        cases hg : p.get? (actorId ns a) with
        | none => rfl
        | some e => exact absurd ((Dict.get?_isSome p _).1 (by rw [hg]; rfl)) h
      rw [this]; rfl
    · simp

/-- The agent that a field of a package adds under an identifier, if none is there. -/
private def agentAt (ns : Str) (o : Option (OrNoAssertion Actor)) (k : Str) : Option Element3 :=
  match o with
  | some (.val a) => if actorId ns a = k then some (.agent (bumpedActor ns none a)) else none
  | _ => none

private theorem actorOpt_get (ns : Str) (o : Option (OrNoAssertion Actor)) (p : Payload) (k : Str) :
    (bumpActorOpt ns o p).get? k = (p.get? k).or (agentAt ns o k) := by
  unfold bumpActorOpt agentAt
  split
  · exact actor_get ..
  · simp

private theorem package_ok {ns : Str} {refs : List ExternalDocumentRef} {s t : BumpState} {x : Package} (h : bumpPackage ns refs s x = .ok t) :
    ∃ id q, getFullElementId x.spdxId ns refs = .ok id ∧ bumpedPackage ns id x = .ok q ∧ q.spdxId = id ∧
      t.imports = s.imports ++ importOf x.spdxId ∧
      ∀ k, t.payload.get? k = if id = k then some (.package q) else ((s.payload.get? k).or (agentAt ns x.supplier k)).or (agentAt ns x.originator k) := by
  unfold bumpPackage at h
  split at h
  · cases h
  · rename_i id hid
    split at h
    · cases h
    · rename_i q hq
      cases h
      have hqid : q.spdxId = id := by
        unfold bumpedPackage at hq
        split at hq <;> cases hq <;> rfl
      refine ⟨id, q, hid, hq, hqid, rfl, fun k => ?_⟩
      rw [Payload.get?_add, actorOpt_get, actorOpt_get]
      show (if q.spdxId = k then _ else _) = _
      rw [hqid]

private theorem package_does (ns : Str) (refs : List ExternalDocumentRef) {x : Package} {id : Str} {q : Package3} (s : BumpState)
    (hid : getFullElementId x.spdxId ns refs = .ok id) (hq : bumpedPackage ns id x = .ok q) : ∃ t, bumpPackage ns refs s x = .ok t := by
  unfold bumpPackage
  rw [hid]
  simp only [hq]
  exact ⟨_, rfl⟩

/-- The two packages have other identifiers, and actors with the same identifier are the same. -/
private def ApartPackages (ns : Str) (refs : List ExternalDocumentRef) (x y : Package) : Prop :=
  getFullElementId x.spdxId ns refs ≠ getFullElementId y.spdxId ns refs ∧
    ∀ o ∈ [x.supplier, x.originator], ∀ o' ∈ [y.supplier, y.originator], ∀ k e e', agentAt ns o k = some e → agentAt ns o' k = some e' → e = e'

private theorem or_swap {α : Type} (p a b c d : Option α) (h : ∀ o ∈ [a, b], ∀ o' ∈ [c, d], ∀ e e', o = some e → o' = some e' → e = e') :
    (((p.or a).or b).or c).or d = (((p.or c).or d).or a).or b := by
  have swap : ∀ x y : Option α, (∀ e e', x = some e → y = some e' → e = e') → x.or y = y.or x := by
    intro x y h
    cases x with
    | none => simp
    | some e =>
      cases y with
      | none => simp
      | some e' => simpa using h e e' rfl rfl
  have split : ∀ {x y : Option α} {e}, x.or y = some e → x = some e ∨ y = some e := by
    intro x y e h
    cases x with
    | none => exact .inr (by simpa using h)
    | some _ => exact .inl (by simpa using h)
  have hs := swap (a.or b) (c.or d) (by
    intro e e' h1 h2
    rcases split h1 with h1 | h1 <;> rcases split h2 with h2 | h2
    · exact h a (by simp) c (by simp) e e' h1 h2
    · exact h a (by simp) d (by simp) e e' h1 h2
    · exact h b (by simp) c (by simp) e e' h1 h2
    · exact h b (by simp) d (by simp) e e' h1 h2)
  simp only [Option.or_assoc] at hs ⊢
  rw [hs]

private theorem append_swap {α : Type} (a b c : List α) : (a ++ b ++ c).Perm (a ++ c ++ b) := by
  rw [List.append_assoc, List.append_assoc]
  exact List.Perm.append_left a List.perm_append_comm

private theorem packages_fold (ns : Str) (refs : List ExternalDocumentRef) {l l' : List Package} (hl : l.Perm l')
    (ha : l.Pairwise (ApartPackages ns refs)) {s s' t : BumpState} (h : Like s s') (e : l.foldlM (bumpPackage ns refs) s = .ok t) :
    ∃ t', l'.foldlM (bumpPackage ns refs) s' = .ok t' ∧ Like t t' := by
  refine perm_fold (bumpPackage ns refs) Like like_refl like_trans (ApartPackages ns refs) ?_ ?_ ?_ hl ha h e
  · intro x y ⟨h1, h2⟩
    exact ⟨h1.symm, fun o ho o' ho' k e e' h h' => (h2 o' ho' o ho k e' e h' h).symm⟩
  · intro s s' x t h e
    obtain ⟨id, q, h1, h2, _, h3, h4⟩ := package_ok e
    obtain ⟨t', h5⟩ := package_does ns refs s' h1 h2
    obtain ⟨id', q', h1', h2', _, h3', h4'⟩ := package_ok h5
    rw [h1] at h1'
    cases h1'
    rw [h2] at h2'
    cases h2'
    refine ⟨t', h5, fun k => ?_, ?_⟩
    · rw [h4, h4', h.get]
    · rw [h3, h3']
      exact h.imports.append_right _
  · intro s t u x y ha e e'
    obtain ⟨id, q, h1, h2, _, h3, h4⟩ := package_ok e
    obtain ⟨jd, r, g1, g2, _, g3, g4⟩ := package_ok e'
    obtain ⟨t', h5⟩ := package_does ns refs s g1 g2
    obtain ⟨u', h6⟩ := package_does ns refs t' h1 h2
    obtain ⟨_, _, i1, i2, _, i3, i4⟩ := package_ok h5
    obtain ⟨_, _, j1, j2, _, j3, j4⟩ := package_ok h6
    rw [g1] at i1; cases i1
    rw [g2] at i2; cases i2
    rw [h1] at j1; cases j1
    rw [h2] at j2; cases j2
    have hne : id ≠ jd := by
      rintro rfl
      exact ha.1 (by rw [h1, g1])
    refine ⟨t', u', h5, h6, fun k => ?_, ?_⟩
    · rw [g4, h4, j4, i4]
      by_cases hk : id = k
      · subst hk
        rw [if_neg (Ne.symm hne), if_pos rfl, if_pos rfl]
        rfl
      · by_cases hk' : jd = k
        · subst hk'
          rw [if_pos rfl, if_neg hne, if_pos rfl]
          rfl
        · rw [if_neg hk', if_neg hk, if_neg hk, if_neg hk']
          refine or_swap _ _ _ _ _ ?_
          intro o ho o' ho' e e' h h'
          simp only [List.mem_cons, List.not_mem_nil, or_false] at ho ho'
          rcases ho with rfl | rfl <;> rcases ho' with rfl | rfl
          · exact ha.2 _ (by simp) _ (by simp) k e e' h h'
          · exact ha.2 x.supplier (by simp) y.originator (by simp) k e e' h h'
          · exact ha.2 x.originator (by simp) y.supplier (by simp) k e e' h h'
          · exact ha.2 x.originator (by simp) y.originator (by simp) k e e' h h'
    · rw [g3, h3, j3, i3]
      exact append_swap _ _ _

/-- A step that puts an element under an identifier of its own. -/
private theorem simple_fold {X : Type} (f : BumpState → X → Except BumpError BumpState) (id : X → Except FullIdError Str) (el : Str → X → Element3)
    (name : X → Str) (hf : ∀ s x, f s x = match id x with
      | .error e => .error (.fullId e)
      | .ok k => .ok { payload := s.payload.add (el k x), imports := s.imports ++ importOf (name x) })
    (hel : ∀ k x, (el k x).spdxId = k) {l l' : List X} (hl : l.Perm l') (ha : l.Pairwise fun x y => id x ≠ id y)
    {s s' t : BumpState} (h : Like s s') (e : l.foldlM f s = .ok t) : ∃ t', l'.foldlM f s' = .ok t' ∧ Like t t' := by
  have ok : ∀ {s t x}, f s x = .ok t → ∃ k, id x = .ok k ∧ t.imports = s.imports ++ importOf (name x) ∧
      ∀ j, t.payload.get? j = if k = j then some (el k x) else s.payload.get? j := by
    intro s t x h
    rw [hf] at h
    split at h
    · cases h
    · rename_i k hk
      cases h
      exact ⟨k, hk, rfl, fun j => by rw [Payload.get?_add, hel]⟩
  have does : ∀ {x k} s, id x = .ok k → ∃ t, f s x = .ok t := by
    intro x k s h
    rw [hf, h]
    exact ⟨_, rfl⟩
  refine perm_fold f Like like_refl like_trans (fun x y => id x ≠ id y) (fun h => Ne.symm h) ?_ ?_ hl ha h e
  · intro s s' x t h e
    obtain ⟨k, h1, h2, h3⟩ := ok e
    obtain ⟨t', h4⟩ := does s' h1
    obtain ⟨k', g1, g2, g3⟩ := ok h4
    rw [h1] at g1; cases g1
    refine ⟨t', h4, fun j => by rw [h3, g3, h.get], ?_⟩
    rw [h2, g2]
    exact h.imports.append_right _
  · intro s t u x y ha e e'
    obtain ⟨k, h1, h2, h3⟩ := ok e
    obtain ⟨m, g1, g2, g3⟩ := ok e'
    obtain ⟨t', h4⟩ := does s g1
    obtain ⟨u', h5⟩ := does t' h1
    obtain ⟨_, i1, i2, i3⟩ := ok h4
    obtain ⟨_, j1, j2, j3⟩ := ok h5
    rw [g1] at i1; cases i1
    rw [h1] at j1; cases j1
    have hne : k ≠ m := by
      rintro rfl
      exact ha (by rw [h1, g1])
    refine ⟨t', u', h4, h5, fun j => ?_, ?_⟩
    · rw [g3, h3, j3, i3]
      by_cases hk : k = j
      · subst hk
        rw [if_neg (Ne.symm hne), if_pos rfl, if_pos rfl]
      · rw [if_neg hk, if_neg hk]
    · rw [g2, h2, j2, i2]
      exact append_swap _ _ _

private theorem links_get {d d' : Document} (hi : d'.creationInfo = d.creationInfo) (ha : d'.annotations = d.annotations)
    (hr : d'.relationships = d.relationships) {p p' : Payload} (h : ∀ k, p.get? k = p'.get? k) (k : Str) :
    (bumpLinks d p).get? k = (bumpLinks d' p').get? k := by
  unfold bumpLinks
  rw [hi, ha, hr]
  dsimp only
  have hrel : ∀ k, (bumpRelationships d.creationInfo.documentNamespace d.relationships p).get? k =
      (bumpRelationships d.creationInfo.documentNamespace d.relationships p').get? k := by
    intro k
    by_cases hm : ∃ z, (k, z) ∈ allWrites (bumpedRelationships d.creationInfo.documentNamespace d.relationships)
    · obtain ⟨z, hz⟩ := hm
      rw [bumpRelationships_get_mem _ hz, bumpRelationships_get_mem _ hz]
    · rw [bumpRelationships_get_not_mem _ (fun z hz => hm ⟨z, hz⟩), bumpRelationships_get_not_mem _ (fun z hz => hm ⟨z, hz⟩), h]
  generalize bumpRelationships d.creationInfo.documentNamespace d.relationships p = q at hrel
  generalize bumpRelationships d.creationInfo.documentNamespace d.relationships p' = q' at hrel
  generalize d.annotations.zipIdx = l
  induction l generalizing q q' with
  | nil => exact hrel k
  | cons a l ih =>
    rw [List.foldl_cons, List.foldl_cons]
    refine ih _ _ ?_
    intro k
    unfold bumpAnnotation
    rw [Payload.get?_add, Payload.get?_add, actor_get, actor_get, hrel]

private theorem agentAt_some {ns : Str} {o : Option (OrNoAssertion Actor)} {k : Str} {e : Element3} (h : agentAt ns o k = some e) :
    ∃ a, o = some (.val a) ∧ actorId ns a = k ∧ e = .agent (bumpedActor ns none a) := by
  unfold agentAt at h
  split at h
  · rename_i a
    split at h
    · rename_i hk
      cases h
      exact ⟨a, rfl, hk, rfl⟩
    · cases h
  · cases h

private theorem agent_eq (d : Document) (a : Actor) : C32.agentId d a = actorId d.creationInfo.documentNamespace a := by
  unfold C32.agentId actorId C32.newId C32.emailOf
  rcases a with ⟨ty, name, email⟩
  have e : (s%"#SPDXRef-Actor-" : Str) = s%"#" ++ s%"SPDXRef-Actor-" := rfl
  rw [e]
  cases email with
  | none => simp
  | some m => cases m <;> simp [Option.filter]

/-! ## Theorems -/

/-- Migrating a document with its packages, files and snippets in another order gives the same elements under the same identifiers, up to the
    order of the imports and the elements that the document lists. (The identifiers are distinct after migration, and no two different actors of
    the packages get the same identifier.) -/
theorem same_elements {d d' : Document} (h : Reordered d d') (hn : (C32.fullIds d).Nodup)
    (ha : ∀ a ∈ packageActors d, ∀ b ∈ packageActors d, C32.agentId d a = C32.agentId d b → a = b) (p : Payload) (hp : bumpDocument d = .ok p) :
    ∃ p', bumpDocument d' = .ok p' ∧ AlikePayloads p p' := by
  obtain ⟨s1, s2, s3, h1, h2, h3, rfl⟩ := bumpDocument_ok hp
  have hids : (d.packages.map fun x => getFullElementId x.spdxId d.creationInfo.documentNamespace d.creationInfo.externalDocumentRefs).Nodup ∧
      (d.files.map fun x => getFullElementId x.spdxId d.creationInfo.documentNamespace d.creationInfo.externalDocumentRefs).Nodup ∧
      (d.snippets.map fun x => getFullElementId x.spdxId d.creationInfo.documentNamespace d.creationInfo.externalDocumentRefs).Nodup := by
    unfold C32.fullIds C32.elementIds at hn
    rw [List.map_append, List.map_append, List.map_map, List.map_map, List.map_map] at hn
    have e1 := List.nodup_append.1 hn
    have e2 := List.nodup_append.1 e1.1
    exact ⟨e2.1, e2.2.1, e1.2.1⟩
  have hpack : d.packages.Pairwise (ApartPackages d.creationInfo.documentNamespace d.creationInfo.externalDocumentRefs) := by
    have h0 := List.pairwise_map.1 hids.1
    refine List.Pairwise.imp_of_mem ?_ h0
    intro x y hx hy hxy
    refine ⟨hxy, ?_⟩
    intro o ho o' ho' k e e' he he'
    obtain ⟨a, rfl, hk, rfl⟩ := agentAt_some he
    obtain ⟨b, rfl, hk', rfl⟩ := agentAt_some he'
    have mem : ∀ {z : Package} {c : Actor}, z ∈ d.packages → some (OrNoAssertion.val c) ∈ [z.supplier, z.originator] → c ∈ packageActors d := by
      intro z c hz hc
      exact List.mem_flatMap.2 ⟨z, hz, List.mem_filterMap.2 ⟨_, hc, rfl⟩⟩
    have := ha a (mem hx ho) b (mem hy ho') (by rw [agent_eq, agent_eq, hk, hk'])
    rw [this]
  have hstart : Like { payload := (bumpCreators d.creationInfo []).add (.document (bumpedDocument d)), imports := [] }
      { payload := (bumpCreators d'.creationInfo []).add (.document (bumpedDocument d')), imports := [] } := by
    have : bumpedDocument d' = bumpedDocument d := by
      unfold bumpedDocument
      rw [h.info, h.relationships]
    rw [this, h.info]
    exact like_refl _
  obtain ⟨t1, g1, l1⟩ := packages_fold _ _ h.packages.symm hpack hstart h1
  obtain ⟨t2, g2, l2⟩ := simple_fold (bumpFile d.creationInfo.documentNamespace d.creationInfo.externalDocumentRefs) (fun x : File => getFullElementId x.spdxId d.creationInfo.documentNamespace d.creationInfo.externalDocumentRefs)
    (fun k x => .file (bumpedFile k x)) (·.spdxId) (fun s x => rfl) (fun k x => rfl) h.files.symm (List.pairwise_map.1 hids.2.1) l1 h2
  obtain ⟨t3, g3, l3⟩ := simple_fold (bumpSnippet d.creationInfo.documentNamespace d.creationInfo.externalDocumentRefs) (fun x : Snippet => getFullElementId x.spdxId d.creationInfo.documentNamespace d.creationInfo.externalDocumentRefs)
    (fun k x => .snippet (bumpedSnippet k x)) (·.spdxId) (fun s x => rfl) (fun k x => rfl) h.snippets.symm (List.pairwise_map.1 hids.2.2) l2 h3
  have hp' : bumpDocument d' = .ok (finishDocument (bumpedDocument d').spdxId t3.imports (bumpLinks d' t3.payload)) := by
    simp only [bumpDocument, bumpElements, bind, Except.bind]
    rw [h.info] at g1 ⊢
    rw [g1]
    simp only
    rw [g2]
    simp only
    rw [g3]
    rfl
  refine ⟨_, hp', ?_⟩
  have hdoc : (bumpedDocument d').spdxId = (bumpedDocument d).spdxId := by
    show _ ++ _ = _
    rw [h.info]
    rfl
  have hget := links_get h.info h.annotations h.relationships l3.get
  have nd := bumpDocument_nodup hp
  have nd' := bumpDocument_nodup hp'
  rw [finishDocument_keys] at nd nd'
  have hkeys : (bumpLinks d' t3.payload).keys.Perm (bumpLinks d s3.payload).keys := by
    rw [List.perm_ext_iff_of_nodup nd' nd]
    intro k
    rw [← Dict.get?_isSome, ← Dict.get?_isSome, hget]
  intro k
  rw [finishDocument_get, finishDocument_get, ← hget, hdoc]
  cases hk : (bumpLinks d s3.payload).get? k with
  | none => exact .inl ⟨rfl, rfl⟩
  | some e =>
    refine .inr ⟨_, _, rfl, rfl, ?_⟩
    cases e with
    | document x => exact ⟨_, _, (l3.imports.symm.append_left _), hkeys.filter _, rfl⟩
    | _ => rfl

/-- Neither is refused if the other is not. -/
theorem same_refusal {d d' : Document} (h : Reordered d d') : (∃ p, bumpDocument d = .ok p) ↔ ∃ p, bumpDocument d' = .ok p := by
  have ids : (C32.fullIds d').Perm (C32.fullIds d) := by
    unfold C32.fullIds C32.elementIds
    rw [h.info]
    exact (((h.packages.map _).append (h.files.map _)).append (h.snippets.map _)).map _
  rw [C32.succeeds_iff, C32.succeeds_iff]
  constructor
  · rintro ⟨h1, h2⟩
    exact ⟨fun x hx => h1 x (ids.mem_iff.1 hx), fun x hx => h2 x (h.packages.mem_iff.1 hx)⟩
  · rintro ⟨h1, h2⟩
    exact ⟨fun x hx => h1 x (ids.mem_iff.2 hx), fun x hx => h2 x (h.packages.mem_iff.2 hx)⟩

/-! ### Where the order does matter -/

private def kindAt (k : Str) (d : Document) : Option ActorType :=
  match bumpDocument d with
  | .ok p => match p.get? k with
    | some (.agent a) => some a.kind
    | _ => none
  | .error _ => none

private def nameAt (k : Str) (d : Document) : Option Str :=
  match bumpDocument d with
  | .ok p => match p.get? k with
    | some (.file f) => some f.name
    | _ => none
  | .error _ => none

private def by' (t : ActorType) (p : Package) : Package := { p with supplier := some (.val { actorType := t, name := s%"Bo" }) }

/-- A person and an organization of the same name get the same identifier, and the first of them is kept. -/
theorem first_actor_kept : ∃ d d' k, Reordered d d' ∧ (C32.fullIds d).Nodup ∧ kindAt k d = some .PERSON ∧ kindAt k d' = some .ORGANIZATION :=
  ⟨{ Example.doc with packages := [by' .PERSON Example.package, by' .ORGANIZATION Example.barePackage] },
   { Example.doc with packages := [by' .ORGANIZATION Example.barePackage, by' .PERSON Example.package] },
   s%"https://e.org/d#SPDXRef-Actor-Bo", ⟨rfl, .swap .., .refl _, .refl _, rfl, rfl⟩, by decide +kernel, by decide +kernel, by decide +kernel⟩

/-- Of two files with the same identifier the last is kept. -/
theorem last_file_kept : ∃ d d' k, Reordered d d' ∧ nameAt k d = some s%"./b.py" ∧ nameAt k d' = some s%"./a.py" :=
  ⟨{ Example.doc with files := [Example.file, { Example.file with name := s%"./b.py" }] },
   { Example.doc with files := [{ Example.file with name := s%"./b.py" }, Example.file] },
   s%"https://e.org/d#SPDXRef-File", ⟨rfl, .refl _, .swap .., .refl _, rfl, rfl⟩, by decide +kernel, by decide +kernel⟩

/-! ## A concrete case -/

private def one : Document :=
  { Example.doc with
    packages := [by' .PERSON Example.package, by' .PERSON Example.barePackage]
    files := [Example.file, { Example.file with spdxId := s%"DocumentRef-ext:SPDXRef-f" }] }
private def other : Document := { one with packages := one.packages.reverse, files := one.files.reverse }

private theorem reordered : Reordered one other := ⟨rfl, List.reverse_perm _, List.reverse_perm _, .refl _, rfl, rfl⟩

example : ∃ p p', bumpDocument one = .ok p ∧ bumpDocument other = .ok p' ∧ AlikePayloads p p' := by
  obtain ⟨p, hp⟩ : ∃ p, bumpDocument one = .ok p := ⟨_, rfl⟩
  obtain ⟨p', hp', h⟩ := same_elements reordered (by decide +kernel) (by decide +kernel) p hp
  exact ⟨p, p', hp, hp', h⟩

/-- The elements are listed in different orders. -/
private def listed (d : Document) : Option (List Str) :=
  match bumpDocument d with
  | .ok p => match p.get? s%"https://e.org/d#SPDXRef-DOCUMENT" with
    | some (.document x) => some x.element
    | _ => none
  | .error _ => none

example : listed one ≠ listed other := by decide +kernel

end Spdx.C89
