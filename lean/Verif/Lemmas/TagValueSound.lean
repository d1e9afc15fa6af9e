import Verif.Lemmas.TagValueFaults
import Verif.Lemmas.Text
/- What is known of the tokens and attributes of any text. -/
namespace Spdx.C68
open Spdx Spec

theorem scan_mem {σ α : Type} {step : List σ → Option (Option α × List σ)} (Inv : List σ → Prop)
    (hi : ∀ s a r, Inv s → step s = some (a, r) → Inv r) (fuel : Nat) : ∀ (s : List σ) (a : α), Inv s → a ∈ scan step fuel s →
      ∃ s' r, Inv s' ∧ step s' = some (some a, r) := by
  induction fuel with
  | zero => intro s a _ h; cases h
  | succ n ih =>
    intro s a hs h
    unfold scan at h
    split at h
    · cases h
    · rename_i x r e
      rcases List.mem_append.1 h with h | h
      · cases x with
        | none => cases h
        | some y => cases List.mem_singleton.1 h; exact ⟨s, r, hs, e⟩
      · exact ih r a (hi _ _ _ hs e) h

/-! Checksums -/

def Good (t : Tok) : Prop := ∀ s, t = .checksum s → (checksumFromTv s).isSome

private theorem names_known : ∀ n ∈ checksumNames,
    ':' ∉ n ∧ (ChecksumAlgorithm.ofName? (replaceChar '-' ['_'] (upperAscii n))).isSome ∧ ∃ c r, n = c :: r ∧ isPySpace c = false := by
  have h : ∀ n ∈ checksumNames, ':' ∉ n ∧ (ChecksumAlgorithm.ofName? (replaceChar '-' ['_'] (upperAscii n))).isSome ∧ n.head?.any (fun c => !isPySpace c) := by
    decide +kernel
  intro n hn
  obtain ⟨h1, h2, h3⟩ := h n hn
  refine ⟨h1, h2, ?_⟩
  cases n with
  | nil => cases h3
  | cons c r => exact ⟨c, r, rfl, by simpa using h3⟩

private theorem colon_facts : isPySpace ':' = false ∧ isLowerHex ':' = false := by decide

private theorem rstrip_keep (a b : Str) (h : ∃ c r, a = r ++ [c] ∧ isPySpace c = false) : ∃ b', rstrip (a ++ b) = a ++ b' ∧ b' <+: b := by
  obtain ⟨c, r, rfl, hc⟩ := h
  refine ⟨rstrip b, ?_, rstrip_prefix b⟩
  unfold rstrip
  rw [List.reverse_append, List.dropWhile_append]
  split
  · rename_i he
    have he : List.dropWhile isPySpace b.reverse = [] := by simpa using he
    rw [he]
    simp [hc]
  · simp

private theorem mem_takeWhile {p : Char → Bool} {c : Char} {s : Str} (h : c ∈ s.takeWhile p) : p c = true := by
  induction s with
  | nil => cases h
  | cons d s ih =>
    by_cases hd : p d = true
    · rw [List.takeWhile_cons, if_pos hd] at h
      rcases List.mem_cons.1 h with rfl | h
      · exact hd
      · exact ih h
    · rw [List.takeWhile_cons, if_neg hd] at h
      cases h

private theorem checksum_good {v m rest : Str} (h : matchChecksum v = some (m, rest)) : (checksumFromTv (strip m)).isSome := by
  unfold matchChecksum at h
  cases hf : checksumNames.find? fun n => startsWith v (n ++ [':']) with
  | none => rw [hf] at h; cases h
  | some n =>
    rw [hf] at h
    cases h
    obtain ⟨h1, h2, c, r, rfl, hc⟩ := names_known n (List.mem_of_find?_eq_some hf)
    generalize hw : (v.drop ((c :: r).length + 1)).takeWhile isPySpace = w
    generalize hx : ((v.drop ((c :: r).length + 1)).dropWhile isPySpace).takeWhile isLowerHex = x
    have hb : ∃ b', strip ((c :: r) ++ [':'] ++ w ++ x) = (c :: r) ++ ':' :: b' ∧ b' <+: w ++ x := by
      have hl : lstrip ((c :: r) ++ [':'] ++ w ++ x) = ((c :: r) ++ [':']) ++ (w ++ x) := by
        rw [List.append_assoc _ w x]
        exact dropWhile_none hc
      obtain ⟨b', e, hp⟩ := rstrip_keep ((c :: r) ++ [':']) (w ++ x) ⟨':', c :: r, rfl, colon_facts.1⟩
      refine ⟨b', ?_, hp⟩
      unfold strip
      rw [hl, e, List.append_assoc]
      rfl
    obtain ⟨b', e, hp⟩ := hb
    rw [e]
    have hn : ':' ∉ b' := by
      intro hm
      rcases List.mem_append.1 (hp.subset hm) with hm | hm
      · rw [← hw] at hm
        exact absurd (mem_takeWhile hm) (by decide)
      · rw [← hx] at hm
        exact absurd (mem_takeWhile hm) (by decide)
    unfold checksumFromTv
    rw [splitOn_append ':' _ _ h1, splitOn_none ':' _ hn]
    dsimp only
    rw [Option.isSome_map]
    exact h2

private theorem good_of_ne {t : Tok} (h : ∀ s, t ≠ .checksum s) : Good t := fun s e => absurd e (h s)

private theorem reserved_good {w : Str} {t : Tok} (h : ∀ s, t ≠ .checksum s) : Good (reservedTok w t) := by
  unfold reservedTok
  repeat' split
  · exact good_of_ne nofun
  · exact good_of_ne nofun
  · exact good_of_ne nofun
  · exact good_of_ne h

private theorem lexValue_good {r rest : Str} {t : Tok} (h : lexValue r = (some t, rest)) : Good t := by
  unfold lexValue at h
  dsimp only at h
  split at h
  · split at h <;> cases h
    exact good_of_ne nofun
  · split at h
    · rename_i m _ hm
      cases h
      intro s e
      cases e
      exact checksum_good hm
    · repeat' split at h
      all_goals cases h
      all_goals first | (refine good_of_ne ?_; intro s e; cases e; done) | (refine reserved_good ?_; intro s e; cases e; done)

private theorem lexOne_good {s rest : Str} {t : Tok} (h : lexOne s = some (some t, rest)) : Good t := by
  unfold lexOne at h
  split at h
  · cases h
  · repeat' split at h
    · exact lexValue_good (Option.some.inj h)
    all_goals cases h
    all_goals first | (refine good_of_ne ?_; intro s e; cases e; done) | (refine reserved_good ?_; intro s e; cases e; done)

theorem lex_good (text : Str) : ∀ t ∈ lex text, Good t := by
  intro t ht
  obtain ⟨_, _, _, h⟩ := scan_mem (fun _ => True) (fun _ _ _ _ _ => trivial) _ _ _ trivial ht
  exact lexOne_good h

/-! Attributes -/

/-- What is known of the attributes of a text. -/
def Sound (P : Tok → Prop) : TvAttr → Prop
  | .value t v => ∃ x, tvSyntax.lookup t = some x ∧ x.accepts v = true ∧ P v
  | _ => True

private theorem attrOne_sound {P : Tok → Prop} {ts r : List Tok} {a : Option TvAttr} (h : attrOne ts = some (a, r)) (hp : ∀ t ∈ ts, P t) :
    (∀ t ∈ r, P t) ∧ ∀ b, a = some b → Sound P b := by
  unfold attrOne at h
  repeat' split at h
  all_goals cases h
  all_goals constructor
  all_goals first
    | (intro t ht; cases ht; done)
    | (intro t ht; exact hp t (List.mem_cons_of_mem _ ht))
    | (intro t ht; exact hp t (List.mem_cons_of_mem _ (List.mem_cons_of_mem _ ht)))
    | (intro t ht; exact hp t (List.mem_cons_of_mem _ (List.mem_cons_of_mem _ (List.mem_cons_of_mem _ ht))))
    | (intro t ht; exact hp t (List.mem_cons_of_mem _ (List.mem_cons_of_mem _ (List.mem_cons_of_mem _ (List.mem_cons_of_mem _ ht)))))
    | (intro t ht; exact hp t (List.mem_cons_of_mem _ (List.mem_cons_of_mem _ (List.mem_of_mem_tail ht))))
    | (intro b e; cases e; done)
    | (intro b e; cases e; trivial)
    | (intro b e; cases e; exact ⟨_, by assumption, by assumption, hp _ (List.mem_cons_of_mem _ List.mem_cons_self)⟩)

theorem attrs_sound {P : Tok → Prop} {ts : List Tok} (hp : ∀ t ∈ ts, P t) : ∀ a ∈ attrs ts, Sound P a := by
  intro a ha
  obtain ⟨s, r, hs, h⟩ := scan_mem (fun ts => ∀ t ∈ ts, P t) (fun _ _ _ hs e => (attrOne_sound e hs).1) _ _ _ hp ha
  exact (attrOne_sound h hs).2 a rfl

theorem covered : ∀ p ∈ tvSyntax,
    p.1 ∈ genericTextTags ∨ p.1 ∈ genericSpecialTags ∨ p.1 ∈ genericLicenseTags ∨ p.1 ∈ [s%"PackageSupplier", s%"PackageOriginator"] ∨
    p.1 ∈ genericInfoTags ∨ p.1 ∈ [s%"FileChecksum", s%"PackageChecksum"] ∨ p.1 = s%"Creator" ∨
    p.1 ∈ [s%"LicenseListVersion", s%"ExternalDocumentRef", s%"Created", s%"FileType", s%"PackageAttributionText", s%"PackageVerificationCode", s%"FilesAnalyzed",
      s%"PrimaryPackagePurpose", s%"BuiltDate", s%"ReleaseDate", s%"ValidUntilDate", s%"SnippetByteRange", s%"SnippetLineRange", s%"Annotator", s%"AnnotationDate",
      s%"AnnotationType"] ∨ (textListTags.lookup p.1).isSome ∨ (licenseListTags.lookup p.1).isSome := by
  decide +kernel

theorem classes : ∀ t ∈ genericTextTags ++ genericSpecialTags ++ genericLicenseTags ++ [s%"PackageSupplier", s%"PackageOriginator"],
    (tagClass t).isSome = true := by
  decide +kernel

theorem generic_ok (s : TvState) {tag : Str} (h : (tagClass tag).isSome = true) (v : TvItem) : ∃ s', s.generic tag v = .ok s' := by
  unfold TvState.generic
  cases hc : tagClass tag with
  | none => rw [hc] at h; cases h
  | some c => exact ⟨_, rfl⟩

theorem lookup_mem {α : Type} {l : List (Str × α)} {k : Str} {x : α} (h : l.lookup k = some x) : (k, x) ∈ l := by
  induction l with
  | nil => cases h
  | cons p l ih =>
    obtain ⟨k', x'⟩ := p
    rw [List.lookup_cons] at h
    by_cases hk : (k == k') = true
    · rw [hk] at h
      cases h
      cases eq_of_beq hk
      exact List.mem_cons_self
    · rw [Bool.eq_false_iff.2 hk] at h
      exact List.mem_cons_of_mem _ (ih h)

theorem checksum_ok (s : TvState) (c : TvClass) {v : Str} (h : (checksumFromTv v).isSome = true) : ∃ s', s.checksumAttr c v = .ok s' := by
  unfold TvState.checksumAttr
  by_cases hc : s.cls = some c
  · rw [if_pos hc]
    cases hv : checksumFromTv v with
    | none => rw [hv] at h; cases h
    | some x => exact ⟨_, rfl⟩
  · rw [if_neg hc]
    exact ⟨_, rfl⟩

theorem checksum_value {tag : Str} {v : Tok} (h : Sound Good (.value tag v)) (ht : tag ∈ [s%"FileChecksum", s%"PackageChecksum"]) :
    (checksumFromTv v.value).isSome = true := by
  obtain ⟨x, hx, ha, hg⟩ := h
  have hc : ∀ t ∈ [s%"FileChecksum", s%"PackageChecksum"], tvSyntax.lookup t = some .checksum := by decide +kernel
  rw [hc _ ht] at hx
  cases hx
  cases v with
  | checksum s => exact hg s rfl
  | _ => cases ha

end Spdx.C68
