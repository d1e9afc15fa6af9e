import Verif.Lemmas.TagValueLex
/- From the steps of the tag-value writer to the states of the parser. -/
namespace Spdx
open Spec

/-! ## Lines and tokens -/

/-- The tokens of a written line. -/
inductive LineToks : TvLine → List Tok → Prop
  | blank : LineToks .blank []
  | heading {h : Str} : '\n' ∉ h → LineToks (.heading ('#' :: h)) []
  | field {tag v : Str} {t : Tok} : tag ∈ tvTags → Lexes v t → LineToks (.field tag v) [.tag tag, t]
  | text {tag v : Str} : tag ∈ tvTags → ¬ s%"</text>" <:+: v → LineToks (.text tag v) [.tag tag, .text (s%"<text>" ++ v ++ s%"</text>")]

/-- The tokens of written lines. -/
inductive Toks : TvSteps → List Tok → Prop
  | nil : Toks [] []
  | cons {l : TvLine} {t : List Tok} {w : TvSteps} {ts : List Tok} : LineToks l t → Toks w ts → Toks (some l :: w) (t ++ ts)

theorem Toks.append {w w' : TvSteps} {ts ts' : List Tok} (h : Toks w ts) (h' : Toks w' ts') : Toks (w ++ w') (ts ++ ts') := by
  induction h with
  | nil => exact h'
  | cons hl _ ih => rw [List.append_assoc]; exact .cons hl ih

theorem text_cons (l : TvLine) (w : TvSteps) : TvSteps.text (some l :: w) = l.render ++ TvSteps.text w := by
  simp [TvSteps.text, TvSteps.written]

theorem Toks.no_raise {w : TvSteps} {ts : List Tok} (h : Toks w ts) : w.raises = false := by
  induction h with
  | nil => rfl
  | cons _ _ ih => simpa [TvSteps.raises] using ih

private theorem tag_head {t : Str} (h : t ∈ tvTags) : ∃ c r, t = c :: r ∧ isPySpace c = false := by
  have : ∀ t ∈ tvTags, t.head?.any (fun c => !isPySpace c) = true := by decide +kernel
  have := this t h
  cases t with
  | nil => cases this
  | cons c r => exact ⟨c, r, rfl, by simpa using this⟩

theorem lex_dropSpace {w : TvSteps} {ts : List Tok} (h : Toks w ts) : lex ((TvSteps.text w).dropWhile isPySpace) = lex (TvSteps.text w) := by
  induction h with
  | nil => rfl
  | cons hl _ ih =>
    rw [text_cons]
    cases hl with
    | blank =>
      show lex (('\n' :: _).dropWhile isPySpace) = lex ('\n' :: _)
      rw [List.dropWhile_cons_of_pos (by decide), lex_nl]; exact ih
    | heading _ => exact congrArg lex (List.dropWhile_cons_of_neg (by decide))
    | field ht _ =>
      obtain ⟨c, r, rfl, hc⟩ := tag_head ht
      exact congrArg lex (List.dropWhile_cons_of_neg (by simp [hc]))
    | text ht _ =>
      obtain ⟨c, r, rfl, hc⟩ := tag_head ht
      exact congrArg lex (List.dropWhile_cons_of_neg (by simp [hc]))

theorem lex_text {w : TvSteps} {ts : List Tok} (h : Toks w ts) : lex (TvSteps.text w) = ts := by
  induction h with
  | nil => rfl
  | cons hl hw ih =>
    rw [text_cons]
    cases hl with
    | blank => exact (lex_nl _).trans ih
    | @heading x hh =>
      have : ∀ w, (TvLine.heading ('#' :: x)).render ++ TvSteps.text w = '#' :: x ++ '\n' :: TvSteps.text w := by intro w; simp [TvLine.render]
      rw [this, lex_heading hh, ih]; rfl
    | @field tag v t ht hv =>
      have : ∀ w, (TvLine.field tag v).render ++ TvSteps.text w = tag ++ ':' :: (' ' :: (v ++ '\n' :: TvSteps.text w)) := by intro w; simp [TvLine.render]
      rw [this, lex_tag ht, hv]
      show Tok.tag tag :: ([t] ++ lex ('\n' :: _)) = _
      rw [lex_nl, ih]; rfl
    | @text tag v ht hv =>
      have : ∀ w, (TvLine.text tag v).render ++ TvSteps.text w =
          tag ++ ':' :: (s%" <text>" ++ v ++ s%"</text>" ++ ('\n' :: TvSteps.text w)) := by intro w; simp [TvLine.render]
      rw [this, lex_tag ht, lexValue_text hv]
      have : ∀ r : Str, ('\n' :: r).dropWhile isPySpace = r.dropWhile isPySpace := fun r => List.dropWhile_cons_of_pos (by decide)
      simp only [this]
      rw [lex_dropSpace hw, ih]; rfl

/-! ## Tokens and attributes -/

theorem attrOne_length (s : List Tok) (a : Option TvAttr) (r : List Tok) (h : attrOne s = some (a, r)) : r.length < s.length := by
  have done : ∀ {x : Option TvAttr} {q : List Tok}, some (x, q) = some (a, r) → q.length < s.length → r.length < s.length := by
    intro x q e hq
    simp only [Option.some.injEq, Prod.mk.injEq] at e
    rw [← e.2]; exact hq
  unfold attrOne at h
  split at h
  · cases h
  · exact done h (by simp)
  · repeat' split at h
    all_goals (refine done h ?_; simp only [List.length_cons, List.length_tail]; omega)
  · repeat' split at h
    all_goals (refine done h ?_; simp only [List.length_cons, List.length_tail, List.length_nil]; omega)
  · exact done h (by simp)

theorem attrs_step {s r : List Tok} {a : Option TvAttr} (h : attrOne s = some (a, r)) : attrs s = a.toList ++ attrs r :=
  scan_step attrOne_length h

/-- No tokens, or the first one starts an attribute. -/
def StartsT (ts : List Tok) : Prop := ∀ t r, ts = t :: r → t.starts = true

theorem StartsT.follows {ts : List Tok} (h : StartsT ts) : follows ts = true := by
  cases ts with
  | nil => rfl
  | cons t r => exact h t r rfl

/-- The attributes of written lines, whatever comes after. -/
def Gives (w : TvSteps) (as : List TvAttr) : Prop :=
  ∃ ts, Toks w ts ∧ ∀ rest, StartsT rest → StartsT (ts ++ rest) ∧ attrs (ts ++ rest) = as ++ attrs rest

theorem Gives.nil : Gives [] [] := ⟨[], .nil, fun _ h => ⟨h, rfl⟩⟩

theorem Gives.append {w w' : TvSteps} {as as' : List TvAttr} (h : Gives w as) (h' : Gives w' as') : Gives (w ++ w') (as ++ as') := by
  obtain ⟨ts, ht, hg⟩ := h
  obtain ⟨ts', ht', hg'⟩ := h'
  refine ⟨ts ++ ts', ht.append ht', fun rest hr => ?_⟩
  obtain ⟨h1, h2⟩ := hg' rest hr
  obtain ⟨h3, h4⟩ := hg _ h1
  rw [List.append_assoc, List.append_assoc]
  exact ⟨h3, by rw [h4, h2]⟩

theorem Gives.blank : Gives [some .blank] [] := ⟨[], .cons .blank .nil, fun _ h => ⟨h, rfl⟩⟩

theorem Gives.heading {h : Str} (hn : '\n' ∉ h) : Gives [some (.heading ('#' :: h))] [] :=
  ⟨[], .cons (.heading hn) .nil, fun _ h => ⟨h, rfl⟩⟩

theorem tvSyntax_tags : ∀ t ∈ tvSyntax.map (·.1), t ∈ tvTags ∧ t ≠ s%"SPDXID" := by decide +kernel

theorem lookup_mem {β : Type} {l : List (Str × β)} {k : Str} {v : β} (h : l.lookup k = some v) : (k, v) ∈ l := by
  induction l with
  | nil => cases h
  | cons p l ih =>
    obtain ⟨a, b⟩ := p
    simp only [List.lookup] at h
    split at h
    · rename_i e
      simp only [Option.some.injEq] at h
      rw [eq_of_beq e, h]; exact List.mem_cons_self
    · exact List.mem_cons_of_mem _ (ih h)

private theorem tag_of_lookup {tag : Str} {x : TvSyntax} (h : tvSyntax.lookup tag = some x) : tag ∈ tvTags ∧ tag ≠ s%"SPDXID" :=
  tvSyntax_tags tag (List.mem_map.2 ⟨_, lookup_mem h, rfl⟩)

private theorem gives_of_tok {w : TvSteps} {tag : Str} {t : Tok} {x : TvSyntax} (hw : Toks w [.tag tag, t])
    (hx : tvSyntax.lookup tag = some x) (ha : x.accepts t = true) : Gives w [.value tag t] := by
  refine ⟨_, hw, fun rest hr => ⟨?_, ?_⟩⟩
  · intro u r e
    simp only [List.cons_append, List.cons.injEq] at e
    rw [← e.1]
    simp [Tok.starts, hx]
  · have : attrOne (.tag tag :: t :: rest) = some (some (.value tag t), rest) := by
      unfold attrOne
      simp only
      rw [if_neg (tag_of_lookup hx).2, hx]
      simp only [ha, hr.follows, if_true]
    exact attrs_step this

/-- A value written on one line. -/
theorem Gives.value {tag v : Str} {t : Tok} {x : TvSyntax} (hx : tvSyntax.lookup tag = some x) (hv : Lexes v t)
    (ha : x.accepts t = true) : Gives (writeValue tag v) [.value tag t] :=
  gives_of_tok (ts_field (tag_of_lookup hx).1 hv) hx ha
where
  ts_field {tag v : Str} {t : Tok} (h : tag ∈ tvTags) (hv : Lexes v t) : Toks (writeValue tag v) [.tag tag, t] :=
    .cons (.field h hv) .nil

/-- The token of a text that may have several lines. -/
def textTok (v : Str) : Tok :=
  if '\n' ∈ v then .text (s%"<text>" ++ v ++ s%"</text>") else reservedTok v (.line v)

theorem toks_text {tag v : Str} (h : tag ∈ tvTags) (hv : '\n' ∈ v → ¬ s%"</text>" <:+: v) (hl : '\n' ∉ v → OneLine v) :
    Toks (writeText tag v) [.tag tag, textTok v] := by
  unfold writeText textTok
  have : hasChar '\n' v = decide ('\n' ∈ v) := by unfold hasChar; exact List.contains_eq_mem ..
  rw [this]
  split
  · rename_i hn
    rw [if_pos (of_decide_eq_true hn)]
    exact .cons (.text h (hv (of_decide_eq_true hn))) .nil
  · rename_i hn
    have hn' : '\n' ∉ v := by simpa using hn
    rw [if_neg hn']
    exact .cons (.field h (lexes_line (hl hn'))) .nil

theorem freeText_cases {v : Str} (h : FreeText v) : ('\n' ∈ v → ¬ s%"</text>" <:+: v) ∧ ('\n' ∉ v → OneLine v ∧ v ∉ tvTags) := by
  unfold FreeText at h
  split at h
  · rename_i hn; exact ⟨fun _ => h, fun h' => absurd hn h'⟩
  · rename_i hn; exact ⟨fun h' => absurd h' hn, fun _ => h⟩

/-- The text read from the token is the text written. -/
theorem textTok_value {v : Str} (h : FreeText v) : TvSyntax.textOrLine.accepts (textTok v) = true ∧ textOrLineValue (textTok v) = v := by
  unfold textTok
  split
  · rename_i hn
    refine ⟨rfl, strFromText_wrapped ?_⟩
    rintro rfl; cases hn
  · rename_i hn
    have ht := ((freeText_cases h).2 hn).2
    unfold reservedTok
    split
    · rename_i e; rw [e]; exact ⟨rfl, rfl⟩
    · split
      · rename_i e; rw [e]; exact ⟨rfl, rfl⟩
      · rename_i h1 h2
        exact ⟨rfl, rfl⟩

theorem Gives.text {tag v : Str} (hx : tvSyntax.lookup tag = some .textOrLine) (h : FreeText v) :
    Gives (writeText tag v) [.value tag (textTok v)] :=
  gives_of_tok (toks_text (tag_of_lookup hx).1 (freeText_cases h).1 (fun hn => ((freeText_cases h).2 hn).1)) hx (textTok_value h).1

/-- A text where `NONE` and `NOASSERTION` have a meaning of their own. -/
theorem Gives.specialText {tag v : Str} (hx : tvSyntax.lookup tag = some .lineOrSpecial) (h : FreeText v) :
    Gives (writeText tag v) [.value tag (textTok v)] := by
  refine gives_of_tok (toks_text (tag_of_lookup hx).1 (freeText_cases h).1 (fun hn => ((freeText_cases h).2 hn).1)) hx ?_
  have := (textTok_value h).1
  revert this
  cases textTok v <;> exact id

theorem Gives.spdxId {v : Str} (hv : Plain v) : Gives (writeValue s%"SPDXID" v) [.spdxId v] := by
  refine ⟨[.tag s%"SPDXID", .line v], .cons (.field (by decide +kernel) (lexes_plain hv)) .nil, fun rest hr => ⟨?_, ?_⟩⟩
  · intro u r e
    simp only [List.cons_append, List.cons.injEq] at e
    rw [← e.1]; rfl
  · refine attrs_step (a := some (.spdxId v)) ?_
    exact (show _ = if follows rest then _ else _ from rfl).trans (if_pos hr.follows)

/-- The steps of an optional comment. -/
private theorem gives_commented {tag ct v : Str} (hc : commentTag tag = some ct) (ht : tag ∈ tvTags) (hx : tvSyntax.lookup tag = none)
    (hs : tag ≠ s%"SPDXID") (hct : ct ∈ tvTags) (hv : Plain v) (comment : Option Str) (hcm : ∀ c, comment = some c → FreeText c) :
    Gives (writeValue tag v ++ comment.toList.flatMap (writeText ct)) [.commented tag v (comment.map textTok)] := by
  have h1 : Toks (writeValue tag v) [.tag tag, .line v] := .cons (.field ht (lexes_plain hv)) .nil
  have hstart : ∀ rest : List Tok, StartsT (.tag tag :: rest) := by
    intro rest u r e
    simp only [List.cons.injEq] at e
    rw [← e.1]; simp [Tok.starts, hc]
  cases comment with
  | none =>
    refine ⟨_, h1.append .nil, fun rest hr => ⟨hstart _, ?_⟩⟩
    cases rest with
    | nil =>
      have : attrOne [.tag tag, .line v] = some (some (.commented tag v none), []) := by
        unfold attrOne
        simp only
        rw [if_neg hs, hx]
        simp only [hc]
      exact attrs_step this
    | cons t r =>
      have ht' := hr t r rfl
      have : attrOne (.tag tag :: .line v :: t :: r) = some (some (.commented tag v none), t :: r) := by
        unfold attrOne
        simp only
        rw [if_neg hs, hx]
        simp only [hc]
        rw [if_neg, if_pos ht']
        rintro rfl
        revert ht'
        have : ∀ t ∈ tvTags, ∀ c, commentTag t = some c → (Tok.tag c).starts = false := by
          intro t ht c hcc
          unfold commentTag at hcc
          split at hcc
          · cases hcc; decide +kernel
          · cases hcc; decide +kernel
          · cases hcc
        rw [this tag ht ct hc]; exact Bool.false_ne_true
      exact attrs_step this
  | some c =>
    have hfc := hcm c rfl
    have e : ((some c).toList.flatMap (writeText ct)) = writeText ct c := by simp
    rw [e]
    refine ⟨_, h1.append (toks_text hct (freeText_cases hfc).1 (fun hn => ((freeText_cases hfc).2 hn).1)), fun rest hr => ⟨hstart _, ?_⟩⟩
    have : attrOne (.tag tag :: .line v :: .tag ct :: textTok c :: rest) = some (some (.commented tag v (some (textTok c))), rest) := by
      unfold attrOne
      simp only
      rw [if_neg hs, hx]
      simp only [hc]
      rw [if_pos (textTok_value hfc).1, if_pos hr.follows]
      simp
    exact attrs_step this

theorem Gives.relationship {v : Str} (hv : Plain v) (comment : Option Str) (hc : ∀ c, comment = some c → FreeText c) :
    Gives (writeValue s%"Relationship" v ++ writeText? s%"RelationshipComment" comment)
      [.commented s%"Relationship" v (comment.map textTok)] :=
  gives_commented rfl (by decide +kernel) (by decide +kernel) (by decide +kernel) (by decide +kernel) hv comment hc

theorem Gives.externalRef {v : Str} (hv : Plain v) (comment : Option Str) (hc : ∀ c, comment = some c → FreeText c) :
    Gives (writeValue s%"ExternalRef" v ++ writeText? s%"ExternalRefComment" comment)
      [.commented s%"ExternalRef" v (comment.map textTok)] :=
  gives_commented rfl (by decide +kernel) (by decide +kernel) (by decide +kernel) (by decide +kernel) hv comment hc

/-! ## Attributes and states -/

theorem run_append (L : LicText) (s : TvState) (as bs : List TvAttr) :
    s.run L (as ++ bs) = match s.run L as with | .ok s' => s'.run L bs | .error e => .error e := by
  induction as generalizing s with
  | nil => rfl
  | cons a as ih =>
    simp only [List.cons_append, TvState.run]
    split
    · exact ih _
    · rfl

/-- Reading what was written takes the parser from one state to another. -/
def Runs (L : LicText) (w : TvSteps) (s s' : TvState) : Prop := ∃ as, Gives w as ∧ s.run L as = .ok s'

theorem Runs.nil (L : LicText) (s : TvState) : Runs L [] s s := ⟨[], .nil, rfl⟩

theorem Runs.append {L : LicText} {w w' : TvSteps} {s s' s'' : TvState} (h : Runs L w s s') (h' : Runs L w' s' s'') :
    Runs L (w ++ w') s s'' := by
  obtain ⟨as, hg, hr⟩ := h
  obtain ⟨as', hg', hr'⟩ := h'
  exact ⟨as ++ as', hg.append hg', by rw [run_append, hr]; exact hr'⟩

theorem Runs.skip {L : LicText} {w : TvSteps} (s : TvState) (h : Gives w []) : Runs L w s s := ⟨[], h, rfl⟩

theorem Runs.one {L : LicText} {w : TvSteps} {s s' : TvState} {a : TvAttr} (h : Gives w [a]) (hs : s.step L a = .ok s') : Runs L w s s' :=
  ⟨[a], h, by simp only [TvState.run, hs]⟩

/-- The document read from what was written. -/
theorem Runs.parse {L : LicText} {w : TvSteps} {s : TvState} (h : Runs L w {} s) :
    w.raises = false ∧ parseTagValue L (TvSteps.text w) = s.result := by
  obtain ⟨as, ⟨ts, ht, hg⟩, hr⟩ := h
  refine ⟨ht.no_raise, ?_⟩
  have := (hg [] (fun _ _ e => by cases e)).2
  rw [List.append_nil] at this
  unfold parseTagValue
  rw [lex_text ht, this]
  have e : attrs [] = [] := rfl
  rw [e, List.append_nil, hr]

end Spdx
