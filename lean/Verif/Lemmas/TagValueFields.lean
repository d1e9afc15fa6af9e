import Verif.Lemmas.TagValueRun
import Verif.Lemmas.Digits
import Verif.Spec.TvDoc
/- The composed values of tag-value lines: ranges, references, verification codes, relationships. -/
namespace Spdx
open Spec

theorem matchDatePat_at {p v : Str} (h : (matchDatePat p v).isSome) (i : Nat) (x : Char) (hx : p[i]? = some x) :
    ∃ c, v[i]? = some c ∧ dateChar x c = true := by
  induction p generalizing v i with
  | nil => cases hx
  | cons y p ih =>
    cases v with
    | nil => cases h
    | cons c v =>
      unfold matchDatePat at h
      split at h
      · rename_i hd
        cases i with
        | zero => simp only [List.getElem?_cons_zero, Option.some.injEq] at hx ⊢; exact ⟨c, rfl, hx ▸ hd⟩
        | succ i =>
          rw [Option.isSome_map] at h
          simp only [List.getElem?_cons_succ] at hx ⊢
          exact ih h i hx
      · cases h

theorem date_digit0 {c : Char} {v : Str} (h : LooksLikeDate (c :: v)) : isPyDigit c = true := by
  obtain ⟨d, hd, h⟩ := matchDatePat_at h 0 'd' rfl
  cases hd; exact h

theorem date_dash {v : Str} (h : LooksLikeDate v) : v[4]? = some '-' := by
  obtain ⟨d, hd, h⟩ := matchDatePat_at h 4 '-' rfl
  rw [hd]
  have : d = '-' := by simpa [dateChar] using h
  rw [this]

/-- The beginnings that a plain line must not have. -/
def badStarts : List Str := s%"<text>" :: checksumNames.map (· ++ [':']) ++ [s%"Tool:", s%"Organization:", s%"Person:"]

theorem oneLine_of {v : Str} (h0 : v ≠ []) (hn : '\n' ∉ v) (hs : strip v = v) (hb : ∀ p ∈ badStarts, ¬ p <+: v) (hd : ¬ LooksLikeDate v) :
    OneLine v := by
  refine ⟨h0, hn, hs, hb _ ?_, fun n hm => hb _ ?_, fun p hp => hb _ ?_, hd⟩
  · exact List.mem_cons_self
  · exact List.mem_cons_of_mem _ (List.mem_append_left _ (List.mem_map.2 ⟨n, hm, rfl⟩))
  · exact List.mem_cons_of_mem _ (List.mem_append_right _ hp)

theorem badStarts_head {c : Char} {v : Str} (h : ∀ p ∈ badStarts, p.head? ≠ some c) : ∀ p ∈ badStarts, ¬ p <+: c :: v := by
  intro p hp ⟨t, ht⟩
  cases p with
  | nil => revert hp; decide +kernel
  | cons x p =>
    simp only [List.cons_append, List.cons.injEq] at ht
    exact h _ hp (by rw [List.head?_cons, ht.1])

theorem badStarts_two {c d : Char} {v : Str} (h : ∀ p ∈ badStarts, p.take 2 ≠ [c, d]) : ∀ p ∈ badStarts, ¬ p <+: c :: d :: v := by
  intro p hp ⟨t, ht⟩
  have hl : ∀ p ∈ badStarts, 2 ≤ p.length := by decide +kernel
  have := hl p hp
  match p, hp, this with
  | x :: y :: p, hp, _ =>
    simp only [List.cons_append, List.cons.injEq] at ht
    exact h _ hp (by rw [ht.1, ht.2.1]; rfl)

/-- A text of several words is not a reserved word. -/
theorem plain_of_space {v : Str} (h : OneLine v) (c : Char) (hc : c ∈ v) (hl : isLetterAZ c = false) : Plain v := by
  refine ⟨h, fun ht => ?_, ?_, ?_⟩
  · have := (tvTags_letters v ht).2.1
    rw [List.all_eq_true] at this
    rw [this c hc] at hl; cases hl
  · rintro rfl
    have : ∀ c ∈ s%"NONE", isLetterAZ c = true := by decide
    rw [this c hc] at hl; cases hl
  · rintro rfl
    have : ∀ c ∈ s%"NOASSERTION", isLetterAZ c = true := by decide
    rw [this c hc] at hl; cases hl

theorem not_space_of_digit {c : Char} (h : isDigit09 c = true) : isPySpace c = false ∧ c ≠ ':' ∧ c ≠ '\n' ∧ c ≠ '-' ∧ c ≠ ' ' := by
  have hd := isDigit09_lt h
  revert h
  exact char_below (P := fun c => isDigit09 c = true → isPySpace c = false ∧ c ≠ ':' ∧ c ≠ '\n' ∧ c ≠ '-' ∧ c ≠ ' ') 128 (by decide +kernel) c hd

theorem isLowerHex_lt {c : Char} (h : isLowerHex c = true) : c.toNat < 128 := by
  unfold isLowerHex at h
  rcases Bool.or_eq_true_iff.1 h with h | h
  · exact isDigit09_lt h
  · simp only [Bool.and_eq_true, decide_eq_true_eq] at h
    have : 'f'.toNat = 102 := rfl
    omega

theorem hex_facts {c : Char} (h : isLowerHex c = true) :
    isPySpace c = false ∧ c ≠ ':' ∧ c ≠ '\n' ∧ c ≠ '-' ∧ c ≠ ' ' ∧ c ≠ 'S' ∧ c ≠ '(' ∧ c ≠ ',' := by
  have hd := isLowerHex_lt h
  revert h
  exact char_below (P := fun c => isLowerHex c = true → isPySpace c = false ∧ c ≠ ':' ∧ c ≠ '\n' ∧ c ≠ '-' ∧ c ≠ ' ' ∧ c ≠ 'S' ∧ c ≠ '(' ∧ c ≠ ',') 128
    (by decide +kernel) c hd

theorem hex_not_start {c : Char} (h : isLowerHex c = true) : ∀ p ∈ badStarts, p.head? ≠ some c := by
  have hd := isLowerHex_lt h
  revert h
  exact char_below (P := fun c => isLowerHex c = true → ∀ p ∈ badStarts, p.head? ≠ some c) 128 (by decide +kernel) c hd

/-! ## Ranges -/

/-- The text of a range of natural numbers. -/
theorem range_line (a b : Nat) : Plain (natStr a ++ s%":" ++ natStr b) ∧
    parseTvRange (natStr a ++ s%":" ++ natStr b) = some ((a : Int), (b : Int)) := by
  obtain ⟨c, r, hc⟩ := List.exists_cons_of_ne_nil (natStr_ne_nil a)
  have hall : ∀ x ∈ natStr a ++ s%":" ++ natStr b, x = ':' ∨ isDigit09 x = true := by
    intro x hx
    simp only [List.mem_append, List.mem_singleton] at hx
    rcases hx with (hx | hx) | hx
    · exact .inr (natStr_digits a x hx).1
    · exact .inl hx
    · exact .inr (natStr_digits b x hx).1
  have hsp : ∀ x ∈ natStr a ++ s%":" ++ natStr b, isPySpace x = false := by
    intro x hx
    rcases hall x hx with rfl | h
    · decide
    · exact (not_space_of_digit h).1
  have hstrip : strip (natStr a ++ s%":" ++ natStr b) = natStr a ++ s%":" ++ natStr b := by
    rw [strip_eq_self_iff]
    exact ⟨fun x r e => hsp x (by rw [e]; simp), fun x r e => hsp x (by rw [e]; simp)⟩
  have hcd : isDigit09 c = true := (natStr_digits a c (by rw [hc]; simp)).1
  constructor
  · refine plain_of_space ?_ ':' (by simp) (by decide)
    refine oneLine_of (by simp) ?_ hstrip ?_ ?_
    · intro h
      rcases hall _ h with h | h
      · cases h
      · exact (not_space_of_digit h).2.2.1 rfl
    · rw [hc]
      refine badStarts_head (hex_not_start ?_)
      simp [isLowerHex, hcd]
    · intro h
      have := List.mem_of_getElem? (date_dash h)
      rcases hall _ this with h | h
      · cases h
      · exact (not_space_of_digit h).2.2.2.1 rfl
  · unfold parseTvRange
    rw [hstrip]
    have hs : splitOn ':' (natStr a ++ s%":" ++ natStr b) = [natStr a, natStr b] := by
      rw [splitOn_two]
      refine ⟨by simp, ?_, ?_⟩
      · intro h; exact (not_space_of_digit (natStr_digits a _ h).1).2.1 rfl
      · intro h; exact (not_space_of_digit (natStr_digits b _ h).1).2.1 rfl
    rw [hs]
    simp only
    rw [if_pos, digitsVal_natStr, digitsVal_natStr]
    · rfl
    · refine ⟨natStr_ne_nil a, natStr_ne_nil b, ?_, ?_⟩ <;> rw [List.all_eq_true]
      · exact fun x hx => (natStr_digits a x hx).2
      · exact fun x hx => (natStr_digits b x hx).2

/-! ## References to other documents -/

theorem splitSha1_hex {h : Str} (hh : ∀ c ∈ h, c ≠ 'S') : splitSha1 h = none := by
  induction h with
  | nil => rfl
  | cons c r ih =>
    unfold splitSha1
    rw [ih fun x hx => hh x (List.mem_cons_of_mem _ hx)]
    simp only [Option.map_eq_none_iff]
    unfold matchSha1 dropPrefix?
    have : s%"SHA1:".isPrefixOf (c :: r) = false := by
      rw [Bool.eq_false_iff]
      intro e
      obtain ⟨t, ht⟩ := List.isPrefixOf_iff_prefix.1 e
      simp only [List.cons_append, List.cons.injEq] at ht
      exact hh c List.mem_cons_self ht.1.symm
    rw [this]; rfl

theorem splitSha1_at {h : Str} (hl : h.length = 40) (hh : ∀ c ∈ h, isLowerHex c = true) (a : Str) :
    splitSha1 (a ++ (s%"SHA1: " ++ h)) = some (a, s%"SHA1: " ++ h) := by
  induction a with
  | nil =>
    have hno : splitSha1 (s%"HA1: " ++ h) = none := by
      refine splitSha1_hex fun c hc => ?_
      rcases List.mem_append.1 hc with hc | hc
      · exact (by decide : ∀ c ∈ s%"HA1: ", c ≠ 'S') c hc
      · exact (hex_facts (hh c hc)).2.2.2.2.2.1
    show splitSha1 ('S' :: (s%"HA1: " ++ h)) = _
    unfold splitSha1
    rw [hno]
    obtain ⟨c, r, rfl⟩ := List.exists_cons_of_ne_nil (fun e : h = [] => by simp [e] at hl)
    have hm : matchSha1 ('S' :: (s%"HA1: " ++ (c :: r))) = some (s%"SHA1: " ++ (c :: r)) := by
      have hc := (hex_facts (hh c List.mem_cons_self)).1
      have e1 : dropPrefix? s%"SHA1:" ('S' :: (s%"HA1: " ++ (c :: r))) = some (' ' :: c :: r) := rfl
      have e2 : (' ' :: c :: r).dropWhile isPySpace = c :: r := by
        rw [List.dropWhile_cons_of_pos (by decide), List.dropWhile_cons_of_neg (by simp [hc])]
      have e3 : (' ' :: c :: r).takeWhile isPySpace = [' '] := by
        rw [List.takeWhile_cons_of_pos (by decide), List.takeWhile_cons_of_neg (by simp [hc])]
      have e4 : (c :: r).take 40 = c :: r := List.take_of_length_le (by omega)
      unfold matchSha1
      rw [e1]
      simp only [e2, e3, e4]
      rw [if_pos ⟨hl, List.all_eq_true.2 hh⟩]
      rfl
    rw [hm]; rfl
  | cons c a ih =>
    rw [List.cons_append]
    unfold splitSha1
    rw [ih]

theorem strip_two {a b : Str} (ha : a ≠ [] ∧ ∀ c ∈ a, isPySpace c = false) (hb : b ≠ [] ∧ ∀ c ∈ b, isPySpace c = false) :
    strip (a ++ ' ' :: b ++ [' ']) = a ++ ' ' :: b := by
  have h := strip_eq_self_iff (a ++ ' ' :: b)
  have hs : strip (a ++ ' ' :: b) = a ++ ' ' :: b := by
    rw [h]
    constructor
    · intro c r e
      obtain ⟨x, a', rfl⟩ := List.exists_cons_of_ne_nil ha.1
      simp only [List.cons_append, List.cons.injEq] at e
      rw [← e.1]; exact ha.2 x List.mem_cons_self
    · intro c r e
      have hc : c ∈ b := by
        have h1 : (a ++ ' ' :: b).getLast? = some c := by rw [e]; simp
        rw [List.getLast?_append, List.getLast?_cons] at h1
        rw [List.getLast?_eq_some_getLast hb.1] at h1
        simp only [Option.getD_some, Option.some_or, Option.some.injEq] at h1
        rw [← h1]; exact List.getLast_mem hb.1
      exact hb.2 c hc
  obtain ⟨x, a', rfl⟩ := List.exists_cons_of_ne_nil ha.1
  have hx := ha.2 x List.mem_cons_self
  have hl : ∀ w : Str, lstrip (x :: w) = x :: w := fun w => dropWhile_none hx
  unfold strip at hs ⊢
  simp only [List.cons_append, hl] at hs ⊢
  unfold rstrip at hs ⊢
  rw [← hs]
  simp only [List.reverse_cons, List.reverse_append, List.reverse_nil, List.nil_append, List.cons_append]
  rw [List.dropWhile_cons_of_pos (by decide)]

theorem parseDocRef_written {r : ExternalDocumentRef} (h : DocRefTv r) : Plain (externalDocumentRefToTv r) ∧
    parseDocRef (externalDocumentRefToTv r) = .ok r := by
  have e : externalDocumentRefToTv r = (r.documentRefId ++ ' ' :: r.documentUri ++ [' ']) ++ (s%"SHA1: " ++ r.checksum.value) := by
    unfold externalDocumentRefToTv
    rw [h.sha1]
    simp [joinWith, ChecksumAlgorithm.name]
  have hno : ∀ {s : Str}, (∀ c ∈ s, isPySpace c = false) → ' ' ∉ s := fun hs hm => by have := hs _ hm; revert this; decide
  have hline : OneLine (externalDocumentRefToTv r) := by
    rw [e]
    have := h.line
    simpa [joinWith] using this
  refine ⟨plain_of_space hline ' ' (by rw [e]; simp) (by decide), ?_⟩
  unfold parseDocRef
  rw [e, splitSha1_at h.length h.hex]
  simp only
  have hst : strip (s%"SHA1: " ++ r.checksum.value) = s%"SHA1: " ++ r.checksum.value := by
    rw [strip_eq_self_iff]
    constructor
    · intro c t et
      simp only [List.cons_append, List.cons.injEq] at et
      rw [← et.1]; decide
    · intro c t et
      have h0 : r.checksum.value ≠ [] := fun e => by have := h.length; rw [e] at this; cases this
      have h1 : (s%"SHA1: " ++ r.checksum.value).getLast? = some c := by rw [et]; simp
      rw [List.getLast?_append, List.getLast?_eq_some_getLast h0] at h1
      simp only [Option.some_or, Option.some.injEq] at h1
      rw [← h1]; exact (hex_facts (h.hex _ (List.getLast_mem h0))).1
  rw [strip_two h.id h.uri, hst]
  have hsp : splitOn ' ' (r.documentRefId ++ ' ' :: r.documentUri) = [r.documentRefId, r.documentUri] := by
    rw [splitOn_two]; exact ⟨rfl, hno h.id.2, hno h.uri.2⟩
  have hcs := C06.tv_roundtrip r.checksum (fun hm => (hex_facts (h.hex _ hm)).2.1 rfl) (by
    rw [strip_eq_self_iff]
    exact ⟨fun c t et => (hex_facts (h.hex c (by rw [et]; simp))).1, fun c t et => (hex_facts (h.hex c (by rw [et]; simp))).1⟩)
  have hct : checksumToTv r.checksum = some (s%"SHA1: " ++ r.checksum.value) := by
    unfold checksumToTv
    rw [h.sha1]; rfl
  rw [hct] at hcs
  have hcs' : checksumFromTv (s%"SHA1: " ++ r.checksum.value) = some r.checksum := hcs
  rw [hsp, hcs']

/-! ## External references of packages -/

theorem category_name (c : ExternalPackageRefCategory) : ' ' ∉ enumNameToTv c.name ∧
    ExternalPackageRefCategory.ofName? (replaceChar '-' ['_'] (enumNameToTv c.name)) = some c := by
  cases c <;> decide +kernel

theorem parseTvExtRef_written (r : ExternalPackageRef) (ht : ' ' ∉ r.referenceType) (hl : ' ' ∉ r.locator) :
    parseTvExtRef (joinWith s%" " [enumNameToTv r.category.name, r.referenceType, r.locator]) r.comment = .ok r := by
  unfold parseTvExtRef
  have : splitOn ' ' (joinWith s%" " [enumNameToTv r.category.name, r.referenceType, r.locator]) =
      [enumNameToTv r.category.name, r.referenceType, r.locator] := by
    refine splitOn_join ' ' _ (by simp) ?_
    intro p hp
    simp only [List.mem_cons, List.not_mem_nil, or_false] at hp
    rcases hp with rfl | rfl | rfl
    · exact (category_name _).1
    · exact ht
    · exact hl
  rw [this]
  simp only [(category_name r.category).2]

/-! ## Verification codes -/

theorem splitLast_end (s : Str) (c : Char) : splitLast c (s ++ [c]) = some (s, []) := by
  unfold splitLast
  simp

theorem code_line {c : PackageVerificationCode} (h : CodeTv c) : Plain (verificationCodeToTv c) ∧
    parseTvCode (verificationCodeToTv c) = some c := by
  obtain ⟨v, fs⟩ := c
  obtain ⟨hl, hh, hf⟩ := h
  simp only at hl hh hf
  obtain ⟨x, v', rfl⟩ := List.exists_cons_of_ne_nil (fun e : v = [] => by simp [e] at hl)
  have hx := hh x List.mem_cons_self
  -- a line that starts with the code
  have line : ∀ t : Str, '\n' ∉ t → (∀ y r, t = r ++ [y] → isPySpace y = false) → OneLine (x :: v' ++ t) := by
    intro t hn hlast
    refine oneLine_of (by simp) ?_ ?_ (badStarts_head (hex_not_start hx)) ?_
    · intro hm
      rcases List.mem_append.1 hm with hm | hm
      · exact (hex_facts (hh _ hm)).2.2.1 rfl
      · exact hn hm
    · rw [strip_eq_self_iff]
      constructor
      · intro y r e
        simp only [List.cons_append, List.cons.injEq] at e
        rw [← e.1]; exact (hex_facts hx).1
      · intro y r e
        rcases List.eq_nil_or_concat t with rfl | ⟨t', z, rfl⟩
        · rw [List.append_nil] at e
          exact (hex_facts (hh y (by rw [e]; simp))).1
        · rw [List.concat_eq_append, ← List.append_assoc] at e
          have := List.append_inj_right' e rfl
          simp only [List.cons.injEq, and_true] at this
          subst this
          exact hlast z t' (List.concat_eq_append)
    · intro hd
      have := date_dash hd
      rw [List.getElem?_append_left (by omega)] at this
      exact (hex_facts (hh _ (List.mem_of_getElem? this))).2.2.2.1 rfl
  have htake : ∀ t : Str, (x :: v' ++ t).take 40 = x :: v' := fun t => by rw [List.take_append_of_le_length (by omega)]; exact List.take_of_length_le (by omega)
  have hdrop : ∀ t : Str, (x :: v' ++ t).drop 40 = t := fun t => List.drop_left' hl
  rcases hf with rfl | ⟨f, rfl, hf0, hfn, hfc, hfs⟩
  · have e : verificationCodeToTv ⟨x :: v', []⟩ = x :: v' := rfl
    rw [e]
    have h1 := line [] (by simp) (fun y r e => by simp at e)
    rw [List.append_nil] at h1
    constructor
    · refine ⟨h1, fun ht => ?_, ?_, ?_⟩
      · have : ∀ t ∈ tvTags, t.length ≠ 40 := by decide +kernel
        exact this _ ht hl
      · intro e; rw [e] at hl; cases hl
      · intro e; rw [e] at hl; cases hl
    · unfold parseTvCode
      have t1 := htake []
      have t2 := hdrop []
      rw [List.append_nil] at t1 t2
      rw [t1, t2, if_pos ⟨hl, List.all_eq_true.2 hh⟩]
      rfl
  · have e : verificationCodeToTv ⟨x :: v', [f]⟩ = x :: v' ++ (s%" (excludes: " ++ f ++ s%")") := rfl
    rw [e]
    constructor
    · refine plain_of_space (line _ ?_ ?_) ' ' (by simp) (by decide)
      · intro hm
        simp only [List.mem_append] at hm
        rcases hm with (hm | hm) | hm
        · revert hm; decide
        · exact hfn hm
        · revert hm; decide
      · intro y r e
        have := List.append_inj_right' e rfl
        simp only [List.cons.injEq, and_true] at this
        rw [← this]; decide
    · unfold parseTvCode
      rw [htake, hdrop, if_pos ⟨hl, List.all_eq_true.2 hh⟩]
      have d1 : dropPrefix? s%"(excludes:" ((s%" (excludes: " ++ f ++ s%")").dropWhile isPySpace) = some (' ' :: (f ++ s%")")) := rfl
      rw [d1]
      have d2 : excludesGroup (' ' :: (f ++ s%")")) = some f := by
        unfold excludesGroup
        rw [← List.cons_append, splitLast_end]
        simp only
        obtain ⟨y, f', rfl⟩ := List.exists_cons_of_ne_nil hf0
        have : (' ' :: y :: f').dropWhile isPySpace = y :: f' := by
          rw [List.dropWhile_cons_of_pos (by decide), List.dropWhile_cons_of_neg (by simp [hfs y f' rfl])]
        rw [this]
      show (match (some (' ' :: (f ++ s%")"))).bind excludesGroup with | some g => _ | none => _) = _
      rw [Option.bind_some, d2]
      simp only
      rw [splitOn_none _ _ hfc]

/-! ## Relationships -/

theorem relType_name (t : RelationshipType) : ' ' ∉ t.name ∧ RelationshipType.ofName? t.name = some t := by
  cases t <;> decide +kernel

/-- NONE, NOASSERTION, or a text -/
def specialItem : OrSpecial Str → TvItem
  | .val s => .str s
  | .noAssertion => .noAssertion
  | .none => .none

theorem relatedItem_written {x : OrSpecial Str} (h : ∀ s, x = .val s → ' ' ∉ s ∧ s ≠ s%"NONE" ∧ s ≠ s%"NOASSERTION") :
    ' ' ∉ x.text ∧ relatedItem x.text = specialItem x := by
  cases x with
  | val s =>
    obtain ⟨h1, h2, h3⟩ := h s rfl
    refine ⟨h1, ?_⟩
    show relatedItem s = _
    unfold relatedItem
    rw [if_neg h2, if_neg h3]; rfl
  | noAssertion => exact ⟨by decide, by decide⟩
  | none => exact ⟨by decide, by decide⟩

theorem relationshipLine_split {r : Relationship} (h : RelTv r) : Plain (relationshipLine r) ∧
    splitOn ' ' (relationshipLine r) = [r.spdxElementId, r.relationshipType.name, r.relatedSpdxElementId.text] := by
  refine ⟨plain_of_space h.line ' ' (by simp [relationshipLine, joinWith]) (by decide), splitOn_join ' ' _ (by simp) ?_⟩
  intro p hp
  simp only [List.mem_cons, List.not_mem_nil, or_false] at hp
  rcases hp with rfl | rfl | rfl
  · exact h.id
  · exact (relType_name _).1
  · exact (relatedItem_written h.related).1

end Spdx
