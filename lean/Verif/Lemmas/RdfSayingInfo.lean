import Verif.Lemmas.RdfSaying

/-! What the RDF reader says about the creation information. -/

namespace Spdx.RdfSaying
open Spdx Spdx.RdfReport Spec Spec.RdfSays

theorem says_then {α β : Type} {x : P α} {k : α → P β} {S S' : PMsg → Prop} {V : α → Prop} {W : β → Prop} {E E' : List PMsg → Prop} {R R' : Prop}
    (h : Says x S V E R) (hk : ∀ ms a, x = Except.ok (ms, a) → Says (k a) S' (fun b => V a → W b) E' R') :
    Says (x >>= k) (fun m => S m ∨ S' m) W (fun ms => E ms ∨ R ∧ E' ms) (R ∧ R') := by
  refine ⟨fun ms b e => ?_, fun b e => ?_, fun ms e => ?_⟩
  · obtain ⟨ms1, a, ms2, h1, h2, rfl⟩ := bind_ok e
    obtain ⟨r, hs⟩ := h.says _ _ h1
    obtain ⟨r', hs'⟩ := (hk _ _ h1).says _ _ h2
    exact ⟨⟨r, r'⟩, fun m => by rw [List.mem_append, hs, hs']⟩
  · rw [clean_bind] at e
    obtain ⟨a, h1, h2⟩ := Option.bind_eq_some_iff.1 e
    have h3 : x = Except.ok ([], a) := by
      match x, h1 with
      | .ok ([], _), h1 => cases h1; rfl
      | .ok (_ :: _, _), h1 => cases h1
      | .error _, h1 => cases h1
    exact (hk _ _ h3).gives b h2 (h.gives a h1)
  · rcases bind_error e with e | ⟨ms1, a, h1, e⟩
    · exact .inl (h.raises _ e)
    · exact .inr ⟨(h.says _ _ h1).1, (hk _ _ h1).raises _ e⟩

/-! ### References to other documents -/

theorem literal_value {α : Type} {m : RdfNode → Py α} {m' : RdfNode → Option α} {R : RdfNode → α → Prop} (hA : Agree m m') (hR : ∀ v y, m' v = some y ↔ R v y)
    {g : RdfGraph} {n : RdfNode} {p : Pred} {ms : List PMsg} {o : Option α} (e : readLiteral g n p m = Except.ok (ms, o)) (a : α) :
    o = some a ↔ Optional (values g n p) R (some a) := by
  rw [← RdfSays.one_iff hR, ← clean_literal hA, ← out_literal, e]
  change _ ↔ some o = some (some a)
  exact ⟨congrArg some, Option.some.inj⟩

theorem literal_none {α : Type} {m : RdfNode → Py α} {m' : RdfNode → Option α} {R : RdfNode → α → Prop} (hA : Agree m m') (hR : ∀ v y, m' v = some y ↔ R v y)
    {g : RdfGraph} {n : RdfNode} {p : Pred} {ms : List PMsg} {o : Option α} (e : readLiteral g n p m = Except.ok (ms, o)) :
    o = none ↔ ∀ a, ¬ Optional (values g n p) R (some a) := by
  simp only [← literal_value hA hR e]
  cases o with
  | none => exact ⟨fun _ _ h => (nomatch h), fun _ => rfl⟩
  | some a => exact ⟨fun h => (nomatch h), fun h => absurd rfl (h a)⟩

theorem unheard_ok {α : Type} {p : P α} {a : α} (h : p.unheard = .ok a) : ∃ ms, p = Except.ok (ms, a) := by
  unfold P.unheard at h
  match p, h with
  | .ok (ms, _), h => cases h; exact ⟨ms, rfl⟩
  | .error _, h => cases h

theorem unheard_error {α : Type} {p : P α} {e : PyErr} (h : p.unheard = .error e) : p = Except.error e := by
  unfold P.unheard at h
  match p, h with
  | .ok (ms, _), h => cases h
  | .error _, h => cases h; rfl

theorem literal_raises {α : Type} (m : RdfNode → Py α) (g : RdfGraph) (n : RdfNode) (p : Pred) : Caught (readLiteral g n p m) := by
  intro ms e
  rcases literal_cases g n p m with ⟨h, h'⟩ | ⟨v, h, hb, h'⟩ | ⟨h, hb, h'⟩
  · rw [h'] at e; cases e
  · rw [h'] at e; exact apply_raises m v ms e
  · rw [h'] at e; cases e

theorem made_complaint {α : Type} {cls : Str} {missing : List (Str × Prop)} {y : Py α} (h : Made cls missing y) {ms : List PMsg} (e : y = .error (.parsing ms)) :
    ∃ m, ms = [m] ∧ Complaint cls [] missing m := by
  rcases h with ⟨⟨_, h⟩, _⟩ | ⟨fs, hne, h, hf⟩
  · rw [h] at e; cases e
  · rw [h] at e; cases e; exact ⟨_, rfl, .missing (fun _ hF => nomatch hF) hne hf⟩

theorem bind_raise {α β : Type} {x : Py α} {k : α → Py β} {e : PyErr} (h : (x >>= k) = .error e) : x = .error e ∨ ∃ a, x = .ok a ∧ k a = .error e := by
  cases x with
  | error x => cases h; exact .inl rfl
  | ok a => exact .inr ⟨a, rfl, h⟩

theorem about_anyRef {g : RdfGraph} {ns : Str} {b : Bindings} {n : RdfNode} {ms : List PMsg} (h : RdfCrash.anyRef g ns b n = .error (.parsing ms)) :
    ∃ m, ms = [m] ∧ aboutExternalRef g b ns n m := by
  obtain ⟨id, hid, h⟩ := id_step h
  rcases bind_raise h with h | ⟨⟨uri, checksum⟩, h1, h⟩
  · exact absurd (unheard_error h) (caught_bind (literal_raises _ _ _ _) (fun _ => caught_bind (literal_raises _ _ _ _) fun _ _ e => by cases e) ms)
  · obtain ⟨_, h1⟩ := unheard_ok h1
    obtain ⟨_, u, _, hu, h2, _⟩ := bind_ok h1
    obtain ⟨_, c, _, hc, h3, _⟩ := bind_ok h2
    cases h3
    exact made_complaint (made (fails_one (fails_one (fails_one (fails_ok _) (one_some (noId hid))) (one_some (literal_none agree_strip RdfSays.text_iff hu)))
      (one_some (literal_none (agree_checksum g) (RdfSays.checksum_iff g) hc)))) h

theorem about_extRef {g : RdfGraph} {ns : Str} {b : Bindings} {n : RdfNode} {ms : List PMsg} (h : readExtRef g ns b n = .error (.parsing ms)) :
    ∃ m, ms = [m] ∧ aboutExternalRef g b ns n m := by
  rw [RdfCrash.extRef_eq] at h
  rcases bind_raise h with h | ⟨r, _, h⟩
  · exact about_anyRef h
  · by_cases hb : ' ' ∈ r.documentRefId
    · rw [if_pos hb] at h; cases h
    · rw [if_neg hb] at h; cases h

theorem about_extRefs {g : RdfGraph} {ns : Str} {ms : List PMsg} : ∀ {l b}, readExtRefs g ns b l = .error (.parsing ms) → ∃ m, ms = [m] ∧ aboutExternalRefs g ns m b l
  | [], _, h => by cases h
  | n :: l, b, h => by
    rw [readExtRefs] at h
    rcases bind_raise h with h | ⟨⟨r, b1⟩, h1, h⟩
    · obtain ⟨m, e, h⟩ := about_extRef h
      exact ⟨m, e, .here h⟩
    · rcases bind_raise h with h | ⟨⟨rs, b2⟩, h2, h⟩
      · obtain ⟨h3, rfl⟩ := (RdfSays.extRef_iff ..).1 ((extRef_val ..).symm.trans (val_ok.2 h1))
        obtain ⟨m, e, h⟩ := about_extRefs h
        exact ⟨m, e, .later h3 h⟩
      · cases h

/-! ### The creation information -/

theorem says_docFields (g : RdfGraph) (doc : RdfNode) : Says (readDocFields g doc) (In (documentFaults g doc)) (fun x =>
    Only (Optional (values g doc .specVersion) Text) x.1 ∧ Only (Optional (values g doc .dataLicense) DataLicense) x.2.1 ∧
    Only (Optional (values g doc .name) Text) x.2.2.2) (fun _ => False) True := by
  unfold readDocFields documentFaults
  fields
  refine says_field (field_literal agree_dataLicense RdfSays.dataLicense_iff complains_dataLicense _ _ _) fun _ => ?_
  fields
  exact says_end (fun h1 _ h2 h3 => ⟨h3, h2, h1⟩) trivial

theorem creators_error {l : List RdfNode} {ms : List PMsg} (h : l.mapM readCreator = .error (.parsing ms)) :
    ∃ m, ms = [m] ∧ FirstBad GoodCreator (fun v => ∃ s e, Raw v s ∧ parseActor s = .error e ∧ m = actorComplaint s e) l := by
  have hb : ∀ v ms, readCreator v = .error (.parsing ms) → ∃ m, ms = [m] ∧ ∃ s e, Raw v s ∧ parseActor s = .error e ∧ m = actorComplaint s e := by
    intro v ms h
    unfold readCreator at h
    cases hv : v.toPyStr with
    | none => rw [hv] at h; cases h
    | some s =>
      rw [hv] at h
      change readActor s = _ at h
      unfold readActor at h
      cases hp : parseActor s with
      | ok a => rw [hp] at h; cases h
      | error e =>
        refine ⟨actorComplaint s e, ?_, s, e, (RdfSays.toPyStr_iff v s).1 hv, hp, rfl⟩
        rw [hp] at h
        cases e <;> (cases h; rfl)
  obtain ⟨m, rfl, h2⟩ := firstBad_single (mapM_error (A := fun v ms => ∃ m, ms = [m] ∧ ∃ s e, Raw v s ∧ parseActor s = .error e ∧ m = actorComplaint s e) hb _ h)
  exact ⟨m, rfl, FirstBad.mono (fun v hv => (RdfCrash.pyOut_creator v).goes.1 hv) (fun _ => id) h2⟩

theorem says_infoFields (g : RdfGraph) (i : RdfNode) : Says (readInfoFields g i)
    (In [once g i .created badDate, once g i .licenseListVersion badVersion, once g i .rdfsComment plain]) (fun x => Only (Optional (values g i .created) Date) x.1)
    (fun ms => ∃ m, ms = [m] ∧ FirstBad GoodCreator (fun v => ∃ s e, Raw v s ∧ parseActor s = .error e ∧ m = actorComplaint s e) (values g i .creator))
    (∀ v ∈ values g i .creator, GoodCreator v) := by
  unfold readInfoFields
  fields
  refine says_field (field_literal agree_version RdfSays.version_iff complains_version _ _ _) fun _ => ?_
  fields
  rw [RdfSays.values_eq g i .creator]
  refine says_lift (fun ms h => creators_error h) fun a h => ?_
  exact says_end (fun _ _ h => h) fun v hv => (RdfCrash.pyOut_creator v).goes.1 (mapM_all _ _ h v hv)

theorem mapM_nil {ν α : Type} {m : ν → Py α} {l : List ν} {as : List α} (h : l.mapM m = .ok as) : as = [] ↔ l = [] := by
  cases l with
  | nil => cases h; exact ⟨fun _ => rfl, fun _ => rfl⟩
  | cons v l =>
    rw [List.mapM_cons] at h
    obtain ⟨a, _, h⟩ := bind_step h
    obtain ⟨as', _, h⟩ := bind_step h
    cases h
    exact ⟨fun h => (nomatch h), fun h => (nomatch h)⟩

theorem lift_ok {α : Type} {x : Py α} {ms : List PMsg} {a : α} (h : Py.lift x = Except.ok (ms, a)) : x = .ok a := by
  cases x with
  | ok _ => cases h; rfl
  | error _ => cases h

theorem infoFields_creators {g : RdfGraph} {i : RdfNode} {ms : List PMsg} {x : Option DateTime × Option Version × Option Str × List Actor}
    (h : readInfoFields g i = Except.ok (ms, x)) : x.2.2.2 = [] ↔ values g i .creator = [] := by
  obtain ⟨_, _, _, _, h, _⟩ := bind_ok h
  obtain ⟨_, _, _, _, h, _⟩ := bind_ok h
  obtain ⟨_, _, _, _, h, _⟩ := bind_ok h
  obtain ⟨_, _, _, h1, h, _⟩ := bind_ok h
  cases h
  rw [RdfSays.values_eq]
  exact mapM_nil (lift_ok h1)

theorem field_noCreators {cs : List Actor} {Q : Prop} (h : cs = [] ↔ Q) : Field (logNoCreators cs) (fun m => Q ∧ m = .text s%"No creators provided.") (fun _ => True) := by
  cases cs with
  | nil => exact ⟨fun ms a e m => by cases e; rw [List.mem_singleton]; exact ⟨fun e => ⟨h.1 rfl, e⟩, And.right⟩, fun _ _ => trivial, fun _ e => by cases e⟩
  | cons c cs => exact ⟨fun ms a e m => by cases e; exact ⟨fun e => (nomatch e), fun ⟨q, _⟩ => nomatch h.2 q⟩, fun _ _ => trivial, fun _ e => by cases e⟩

theorem field_logged {α : Type} {x : P α} {S : PMsg → Prop} {V : α → Prop} {E : List PMsg → Prop} {R : Prop} (h : Says x S V E R) {ms : List PMsg} {a : α}
    (e : x = Except.ok (ms, a)) : Field (alreadyLogged ms) S (fun _ => V a) := by
  refine ⟨fun ms' _ e' => by cases e'; exact (h.says _ _ e).2, fun _ e' => ?_, fun _ e' => by cases e'⟩
  cases ms with
  | nil => exact h.gives a (by rw [e]; rfl)
  | cons => cases e'

theorem namespace_id {env : RdfEnv} {g : RdfGraph} {ns : Str} {id : Option Str} {doc : RdfNode} (h : readNamespace env g = .ok (ns, id, doc)) :
    nodes g s%"SpdxDocument" = [doc] ∧ ns = env.defrag doc.text ∧ (id = none ↔ fragmentOf doc.text = []) := by
  unfold readNamespace at h
  rw [RdfSays.nodes_eq]
  match hs : g.subjects .type (spdxTerm s%"SpdxDocument") with
  | [] => rw [hs] at h; cases h
  | _ :: _ :: _ => rw [hs] at h; cases h
  | [n] =>
    rw [hs] at h
    dsimp only at h
    by_cases h1 : '#' ∈ n.text
    · rw [if_pos h1] at h
      by_cases h2 : env.defrag n.text = []
      · rw [if_pos h2] at h; cases h
      · rw [if_neg h2] at h
        cases h
        refine ⟨rfl, rfl, ?_⟩
        by_cases h3 : fragmentOf doc.text = []
        · rw [if_pos h3]; exact ⟨fun _ => h3, fun _ => rfl⟩
        · rw [if_neg h3]; exact ⟨fun h => (nomatch h), fun h => absurd h h3⟩
    · rw [if_neg h1] at h; cases h

theorem made_pair {α β : Type} {cls : Str} {missing : List (Str × Prop)} {y : Py α} {f : α → β} (h : Made cls missing y) :
    Made cls missing (y >>= fun c => (.ok (f c) : Py β)) := by
  rcases h with ⟨⟨a, rfl⟩, h⟩ | ⟨fs, hne, rfl, h⟩
  · exact .inl ⟨⟨_, rfl⟩, h⟩
  · exact .inr ⟨fs, hne, rfl, h⟩

theorem docFields_name {g : RdfGraph} {doc : RdfNode} {ms : List PMsg} {x : Option Str × Option Str × Option Str × Option Str} (h : readDocFields g doc = Except.ok (ms, x)) :
    ShownName g doc (shownName x.2.2.2) := by
  obtain ⟨_, _, _, _, h, _⟩ := bind_ok h
  obtain ⟨_, _, _, _, h, _⟩ := bind_ok h
  obtain ⟨_, _, _, _, h, _⟩ := bind_ok h
  obtain ⟨_, o, _, h1, h, _⟩ := bind_ok h
  cases h
  cases o with
  | none => exact .inr ⟨(literal_none agree_strip RdfSays.text_iff h1).1 rfl, rfl⟩
  | some s => exact .inl ((literal_value agree_strip RdfSays.text_iff h1 s).1 rfl)

theorem docFields_ok (g : RdfGraph) (doc : RdfNode) : ∃ ms x, readDocFields g doc = Except.ok (ms, x) := (RdfCrash.out_docFields g doc).goes.2 trivial

theorem reads_info {env : RdfEnv} {b : Bindings} {g : RdfGraph} {doc i : RdfNode} {id : Option Str} {logged : List PMsg} {version license comment name : Option Str}
    (hid : id = none ↔ fragmentOf doc.text = []) (hd : readDocFields g doc = Except.ok (logged, version, license, comment, name)) :
    Reads (readInfoNode b g (env.defrag doc.text) doc i logged >>= fun x => do
      let c ← construct s%"CreationInfo"
        (.ok CreationInfo.mk ⊛ chkSome s%"spdx_version" version ⊛ chkSome s%"spdx_id" id ⊛ chkSome s%"name" name ⊛ .ok (env.defrag doc.text) ⊛ .ok x.2.2.2.1
          ⊛ chkSome s%"created" x.1 ⊛ .ok x.2.2.1 ⊛ chkSome s%"data_license" license ⊛ .ok x.2.2.2.2.1 ⊛ .ok x.2.1 ⊛ .ok comment)
      return (c, x.2.2.2.2.2)) s%"CreationInfo" (documentFaults g doc ++ infoFaults g i) (infoMissing g doc i)
    (fun ms => (∃ m, ms = [m] ∧ FirstBad GoodCreator (fun v => ∃ s e, Raw v s ∧ parseActor s = .error e ∧ m = actorComplaint s e) (values g i .creator)) ∨
      (∀ v ∈ values g i .creator, GoodCreator v) ∧ ∃ m, ms = [m] ∧ aboutExternalRefs g (env.defrag doc.text) m b (values g doc .externalDocumentRef))
    ((∀ v ∈ values g i .creator, GoodCreator v) ∧ ∃ rs b', ExternalRefs g (env.defrag doc.text) b (values g doc .externalDocumentRef) rs b') := by
  unfold readInfoNode
  refine ⟨_, _, _, rfl, ?_⟩
  refine Says.congr (says_bind (field_logged (says_docFields g doc) hd) fun _ => says_then (says_infoFields g i) fun ms x hx =>
    says_field (l := []) (field_noCreators (infoFields_creators hx)) fun _ => ?_) ?_
  · rw [RdfSays.values_eq g doc .externalDocumentRef]
    refine says_lift (fun _ h => about_extRefs h) fun y hy => ?_
    refine says_end (fun _ hc hdoc => ?_) ⟨y.1, y.2, (RdfSays.extRefs_iff ..).1 ((extRefs_val ..).symm.trans (val_ok.2 hy))⟩
    obtain ⟨h1, h2, h3⟩ := hdoc
    refine made_pair (made ?_)
    exact fails_value _ (fails_value _ (fails_value _ (fails_one (fails_value _ (fails_one (fails_value _ (fails_value _ (fails_one (fails_one (fails_one (fails_ok _)
      (one_some (only_none h1))) (one_some hid)) (one_some (only_none h3))))) (one_some (only_none hc)))) (one_some (only_none h2)))))
  · intro m
    unfold infoFaults In
    simp [or_assoc, or_and_right, exists_or]

theorem about_info {env : RdfEnv} {b : Bindings} {g : RdfGraph} {ms : List PMsg} (h : readCreationInfo env b g = .error (.parsing ms)) :
    ∃ doc m, nodes g s%"SpdxDocument" = [doc] ∧ ms = [m] ∧ aboutInfo env g b doc m := by
  unfold readCreationInfo at h
  rcases bind_raise h with h | ⟨⟨ns, id, doc⟩, hn, h⟩
  · rcases RdfCrash.namespace_cases env g with ⟨_, h'⟩ | ⟨_, _, _, _, h'⟩ <;> (rw [h'] at h; cases h)
  · obtain ⟨hdoc, rfl, hid⟩ := namespace_id hn
    obtain ⟨logged, ⟨version, license, comment, name⟩, hf⟩ := docFields_ok g doc
    dsimp only at h
    rw [hf] at h
    dsimp only at h
    refine ⟨doc, ?_⟩
    cases hi : ((g.subjects .type (spdxTerm s%"CreationInfo")).head?).filter RdfNode.truthy with
    | none =>
      rw [hi] at h
      cases h
      refine ⟨_, hdoc, rfl, .noInfo (fun i e => ?_) (docFields_name hf) rfl fun x => ?_⟩
      · rw [RdfSays.nodes_eq] at e
        rw [e] at hi
        exact blank fun ht => by rw [Option.filter_some_pos ht] at hi; cases hi
      · rw [List.mem_append, List.mem_singleton, ((says_docFields g doc).says _ _ hf).2]
        exact .rfl
    | some i =>
      rw [hi] at h
      rw [← RdfSays.nodes_eq, RdfSays.filter_truthy] at hi
      rcases (reads_info hid hf).about h with (⟨m, e, h⟩ | ⟨hg, m, e, h⟩) | ⟨hg, m, e, h⟩
      · exact ⟨m, hdoc, e, .creator hi.1 hi.2 h⟩
      · exact ⟨m, hdoc, e, .reference hi.1 hi.2 hg h⟩
      · exact ⟨m, hdoc, e, .info hi.1 hi.2 hg.1 hg.2 h⟩

theorem fine_info {env : RdfEnv} {b : Bindings} {g : RdfGraph} {x : CreationInfo × Bindings} {doc i : RdfNode} (h : readCreationInfo env b g = .ok x)
    (hd : nodes g s%"SpdxDocument" = [doc]) (hi : (nodes g s%"CreationInfo").head? = some i) (hb : ¬ Blank i) :
    (∀ F ∈ documentFaults g doc ++ infoFaults g i, ∀ m, ¬ F m) ∧ ∀ x ∈ infoMissing g doc i, ¬ x.2 := by
  unfold readCreationInfo at h
  obtain ⟨⟨ns, id, doc'⟩, hn, h⟩ := bind_step h
  obtain ⟨hdoc, rfl, hid⟩ := namespace_id hn
  cases hd.symm.trans hdoc
  obtain ⟨logged, ⟨version, license, comment, name⟩, hf⟩ := docFields_ok g doc
  dsimp only at h
  rw [hf] at h
  dsimp only at h
  have hi' := RdfSays.filter_truthy.2 ⟨hi, hb⟩
  rw [RdfSays.nodes_eq] at hi'
  rw [hi'] at h
  exact (reads_info hid hf).fine h

theorem refs_read {g : RdfGraph} {ns : Str} {m : PMsg} {b b' : Bindings} {l : List RdfNode} {rs : List ExternalDocumentRef} (h : ExternalRefs g ns b l rs b') :
    ¬ aboutExternalRefs g ns m b l := by
  induction h with
  | nil => exact nofun
  | cons b b' n l r rs h1 _ ih =>
    intro h
    cases h with
    | here h =>
      cases h with
      | faults hne h => rename_i ms; match ms, hne, h with | m :: _, _, h => obtain ⟨_, hF, _⟩ := (h m).1 (.head _); cases hF
      | missing _ hne h =>
        rename_i fs _
        match fs, hne, h with
        | f :: _, _, h =>
          obtain ⟨x, hx, _, hq⟩ := (h f).1 (.head _)
          simp only [List.mem_cons, List.not_mem_nil, or_false] at hx
          rcases hx with rfl | rfl | rfl
          · exact hq _ h1.checksum
          · exact hq _ h1.uri
          · exact hq _ h1.id.1
    | later h' hl =>
      have e1 := (RdfSays.extRef_iff ..).2 ⟨h1, rfl⟩
      have e2 := (RdfSays.extRef_iff ..).2 ⟨h', rfl⟩
      cases e1.symm.trans e2
      exact ih hl

end Spdx.RdfSaying
