import Verif.Lemmas.PatRun
import Verif.Model.PlyLex
import Verif.Lemmas.TagValueLex
/- The rules of the lexer, one by one: which texts they match. -/
namespace Spdx.TvLexing
open Spdx PatRun

/-- The class `\s`. -/
def spaces : Pat := .star (.set false [.space])

def textPat : Pat := .seq (.chr ':') (.seq spaces (litPat s%"<text>"))

/-- Alternatives of texts. -/
def altLits : List Str → Pat
  | [] => .eps
  | [w] => litPat w
  | w :: v :: ws => .alt (litPat w) (altLits (v :: ws))

def hexSet : List CItem := [.range 'a' 'f', .range '0' '9']

def checksumPat : Pat :=
  .seq (.chr ':') (.seq spaces (.seq (.grp 3 (altLits checksumNames)) (.seq (.chr ':') (.seq spaces (.grp 4 (.star (.set false hexSet)))))))

def actorPat (w : Str) : Pat := .seq (.chr ':') (.seq spaces (litThen w (.plus .any)))

/-- `d` stands for a digit, other characters for themselves. -/
def dateItem (c : Char) : Pat := if c = 'd' then .set false [.digit] else .chr c
def datePat : Str → Pat
  | [] => .eps
  | [c] => dateItem c
  | c :: d :: w => .seq (dateItem c) (datePat (d :: w))

def isoPat : Pat := .seq (.chr ':') (.seq spaces (datePat s%"dddd-dd-ddTdd:dd:ddZ"))

def wordSet : List CItem := [.range 'a' 'z', .range 'A' 'Z']
def keywordPat : Pat := .plus (.set false wordSet)
def linePat : Pat := .seq (.chr ':') (.plus .any)
def commentPat : Pat := .seq (.chr '#') (.star .any)
def newlinePat : Pat := .plus (.set false [.chr '\n'])
def blankSet : List CItem := [.chr ' ', .chr '\t']
def blankPat : Pat := .plus (.set false blankSet)

/-- Numbered alternatives. -/
def master : List (Nat × Pat) → Pat
  | [] => .eps
  | [(n, p)] => .grp n p
  | (n, p) :: q :: l => .alt (.grp n p) (master (q :: l))

def initialPats : List (Nat × Pat) :=
  [(1, textPat), (2, checksumPat), (5, actorPat s%"Tool:"), (6, actorPat s%"Organization:"), (7, actorPat s%"Person:"), (8, isoPat),
   (9, keywordPat), (10, linePat), (11, commentPat), (12, newlinePat), (13, blankPat)]

def initialNames : List (Str × Nat) :=
  [(s%"t_text", 1), (s%"t_CHECKSUM", 2), (s%"t_TOOL_VALUE", 5), (s%"t_ORGANIZATION_VALUE", 6), (s%"t_PERSON_VALUE", 7),
   (s%"t_ISO8601_DATE", 8), (s%"t_KEYWORD_AS_TAG", 9), (s%"t_LINE_OR_KEYWORD_VALUE", 10), (s%"t_comment", 11), (s%"t_newline", 12),
   (s%"t_whitespace", 13)]

theorem initial_parsed : parsePattern (masterPattern lexRules) = some (master initialPats, initialNames) := by decide +kernel

def textEndPat : Pat := litThen s%"</text>" spaces
def textAnyPat : Pat := .alt .any (.chr '\n')
def textPats : List (Nat × Pat) := [(1, textEndPat), (2, textAnyPat)]
def textNames : List (Str × Nat) := [(s%"t_text_end", 1), (s%"t_text_any", 2)]

theorem text_parsed : parsePattern (masterPattern lexTextRules) = some (master textPats, textNames) := by decide +kernel

/-! ### The master pattern: the first rule that matches -/

/-- What is left after the first match. -/
def restOf (p : Pat) (s : Str) : Option Str := (p.first {} s).map (·.rest)

theorem restOf_m (p : Pat) (s : Str) : restOf p s = p.m {} s.length (fun m => some m.rest) ⟨s, []⟩ := first_map p s _

/-- The number of the group closed last, and what is left. -/
def lastOf (m : MSt) : Option Nat × Str := (m.caps.head?.map (·.1), m.rest)

theorem master_m (l : List (Nat × Pat)) (h : l ≠ []) (len : Nat) (s : Str) :
    (master l).m {} len (fun m => some (lastOf m)) ⟨s, []⟩ =
      l.findSome? fun x => (x.2.m {} len (fun m => some m.rest) ⟨s, []⟩).map fun r => (some x.1, r) := by
  have one : ∀ n (p : Pat), (Pat.grp n p).m {} len (fun m => some (lastOf m)) ⟨s, []⟩ =
      (p.m {} len (fun m => some m.rest) ⟨s, []⟩).map fun r => (some n, r) := by
    intro n p
    rw [m_grp]
    unfold Pat.m
    show List.findSome? (fun s' : MSt => some (some n, s'.rest)) _ = _
    rw [← head_findSome, ← head_findSome (f := fun s' : MSt => s'.rest), Option.map_map]
    rfl
  induction l with
  | nil => exact absurd rfl h
  | cons x l ih =>
    cases l with
    | nil =>
      rw [master, one, List.findSome?_cons]
      cases (Pat.m {} len x.2 (fun m => some m.rest) ⟨s, []⟩) <;> rfl
    | cons q l =>
      rw [master, m_alt, one, ih (by simp), List.findSome?_cons (a := x)]
      cases (Pat.m {} len x.2 (fun m => some m.rest) ⟨s, []⟩) <;> rfl

/-- The rule taken: the first one that matches. -/
theorem lexMatch_eq {rules : List (Str × Str)} {l : List (Nat × Pat)} {names : List (Str × Nat)} (hl : l ≠ [])
    (hp : parsePattern (masterPattern rules) = some (master l, names)) (s : Str) :
    lexMatch rules s = (l.findSome? fun x => (restOf x.2 s).map fun r => (x.1, r)).bind fun y =>
      (names.find? fun x => x.2 = y.1).map fun x => (x.1, s.take (s.length - y.2.length), y.2) := by
  have h := first_map (E := {}) (master l) s lastOf
  rw [master_m l hl] at h
  have e : (l.findSome? fun x => (restOf x.2 s).map fun r => (some x.1, r)) =
      (l.findSome? fun x => (restOf x.2 s).map fun r => (x.1, r)).map fun y => (some y.1, y.2) := by
    clear h hp hl
    induction l with
    | nil => rfl
    | cons x l ih =>
      rw [List.findSome?_cons, List.findSome?_cons, ih]
      cases restOf x.2 s <;> rfl
  simp only [← restOf_m] at h
  rw [e] at h
  unfold lexMatch
  rw [hp]
  dsimp only
  generalize (l.findSome? fun x => (restOf x.2 s).map fun r => (x.1, r)) = o at h
  cases hf : (master l).first {} s with
  | none =>
    rw [hf] at h
    cases o with
    | none => rfl
    | some y => cases h
  | some m =>
    rw [hf] at h
    cases o with
    | none => cases h
    | some y =>
      have h' := Option.some.inj h
      unfold lastOf at h'
      dsimp only at h' ⊢
      cases hc : m.caps with
      | nil => rw [hc] at h'; cases h'
      | cons a c =>
        rw [hc] at h'
        obtain ⟨y1, y2⟩ := y
        cases h'
        rfl

/-! ### What the rules match -/

theorem m_colon {α : Type} (len : Nat) (p : Pat) (k : MSt → Option α) (c : Char) (r : Str) (caps : List (Nat × Str)) :
    Pat.m {} len (.seq (.chr ':') p) k ⟨c :: r, caps⟩ = if c = ':' then Pat.m {} len p k ⟨r, caps⟩ else none := by
  rw [m_seq, m_chr rfl]
  by_cases h : c = ':'
  · subst h
    simp [dropPrefix?]
  · simp [dropPrefix?, h, Ne.symm h]

theorem dropPrefix_space {w s : Str} {c : Char} (hc : ∀ x, isPySpace x = true → x ≠ c) {x : Char} (hx : isPySpace x = true) :
    dropPrefix? (c :: w) (x :: s) = none := by
  simp [dropPrefix?, Ne.symm (hc x hx)]

theorem m_spaces {α : Type} (len : Nat) (k : MSt → Option α) (s : Str) (caps : List (Nat × Str))
    (h : ∀ x r, isPySpace x = true → k ⟨x :: r, caps⟩ = none) : Pat.m {} len spaces k ⟨s, caps⟩ = k ⟨s.dropWhile isPySpace, caps⟩ := by
  unfold spaces
  rw [m_star_set, space_test rfl]
  exact starK_skip h s

theorem m_any_plus {α : Type} (len : Nat) (k : Str → α) (s : Str) (caps : List (Nat × Str)) :
    Pat.m {} len (.plus .any) (fun m => some (k m.rest)) ⟨s, caps⟩ =
      if s.takeWhile isDot = [] then none else some (k (s.dropWhile isDot)) := by
  have ht : setTest {} true [.chr '\n'] = isDot := any_test rfl
  unfold Pat.plus Pat.any
  rw [m_seq, m_set]
  cases s with
  | nil => rfl
  | cons c r =>
    dsimp only
    rw [ht, List.takeWhile_cons, List.dropWhile_cons]
    by_cases hc : isDot c
    · rw [if_pos hc, if_pos hc, if_pos hc, if_neg (by simp), m_star_set, ht, starK_max rfl]
    · rw [if_neg hc, if_neg hc, if_pos rfl]

theorem restOf_text (c : Char) (r : Str) :
    restOf textPat (c :: r) = if c = ':' then dropPrefix? s%"<text>" (r.dropWhile isPySpace) else none := by
  rw [restOf_m, textPat, m_colon, m_seq, m_spaces]
  · rw [m_litPat rfl]
    cases dropPrefix? s%"<text>" (r.dropWhile isPySpace) <;> rfl
  · intro x r hx
    rw [m_litPat rfl, dropPrefix_space (fun y hy e => by subst e; cases hy) hx]

theorem restOf_actor (d : Char) (w : Str) (hd : isPySpace d = false) (c : Char) (r : Str) :
    restOf (actorPat (d :: w)) (c :: r) = if c = ':' then (matchActor (d :: w) (r.dropWhile isPySpace)).map (·.2) else none := by
  rw [restOf_m, actorPat, m_colon, m_seq, m_spaces]
  · rw [m_litThen rfl]
    congr 1
    unfold dropPrefix? matchActor startsWith
    by_cases h : (d :: w).isPrefixOf (r.dropWhile isPySpace)
    · rw [if_pos h]
      dsimp only
      rw [m_any_plus _ (fun s => s)]
      by_cases h2 : ((r.dropWhile isPySpace).drop (d :: w).length).takeWhile isDot = []
      · rw [if_pos h2, if_neg (fun e => e.2 h2)]
        rfl
      · rw [if_neg h2, if_pos ⟨h, h2⟩]
        rfl
    · rw [if_neg h, if_neg (fun e => h e.1)]
      rfl
  · intro x r hx
    rw [m_litThen rfl, dropPrefix_space (fun y hy e => by subst e; rw [hd] at hy; cases hy) hx]

theorem m_datePat {α : Type} (len : Nat) (k : MSt → Option α) (w s : Str) (caps : List (Nat × Str)) :
    Pat.m {} len (datePat w) k ⟨s, caps⟩ = match matchDatePat w s with
      | some (_, r) => k ⟨r, caps⟩
      | none => none := by
  have item : ∀ (d : Char) (k : MSt → Option α) (s : Str), Pat.m {} len (dateItem d) k ⟨s, caps⟩ = match s with
      | c :: r => if dateChar d c then k ⟨r, caps⟩ else none
      | [] => none := by
    intro d k s
    unfold dateItem dateChar
    by_cases h : d = 'd'
    · rw [if_pos h, m_set, digit_test rfl]
      cases s with
      | nil => rfl
      | cons c r => dsimp only; rw [if_pos h]
    · rw [if_neg h, Pat.chr, m_set, chr_test rfl]
      cases s with
      | nil => rfl
      | cons c r =>
        dsimp only
        rw [if_neg h]
        by_cases hc : c = d
        · rw [if_pos (beq_iff_eq.2 hc), if_pos (decide_eq_true hc)]
        · rw [if_neg (fun e => hc (beq_iff_eq.1 e)), if_neg (fun e => hc (of_decide_eq_true e))]
  induction w generalizing s with
  | nil =>
    rw [datePat, m_eps]
    rfl
  | cons d w ih =>
    cases w with
    | nil =>
      rw [datePat, item]
      cases s with
      | nil => rfl
      | cons c r =>
        unfold matchDatePat
        dsimp only
        by_cases h : dateChar d c
        · rw [if_pos h, if_pos h]
          rfl
        · rw [if_neg h, if_neg h]
    | cons e w =>
      rw [datePat, m_seq, item]
      cases s with
      | nil => rfl
      | cons c r =>
        rw [matchDatePat.eq_def (d :: e :: w)]
        dsimp only
        by_cases h : dateChar d c
        · rw [if_pos h, if_pos h, ih]
          cases matchDatePat (e :: w) r <;> rfl
        · rw [if_neg h, if_neg h]

theorem space_not_digit (x : Char) (h : isPySpace x = true) : isPyDigit x = false := by
  have hd : ∀ n ∈ [0x9, 0xa, 0xb, 0xc, 0xd, 0x1c, 0x1d, 0x1e, 0x1f, 0x20, 0x85, 0xa0, 0x1680, 0x2000, 0x2001, 0x2002, 0x2003, 0x2004,
      0x2005, 0x2006, 0x2007, 0x2008, 0x2009, 0x200a, 0x2028, 0x2029, 0x202f, 0x205f, 0x3000],
      ndStarts.find? (fun s => decide (s ≤ n) && decide (n < s + 10)) = none := by decide +kernel
  have hm := hd x.toNat (List.contains_iff_mem.1 h)
  unfold isPyDigit digitVal?
  rw [hm]
  rfl

theorem restOf_iso (c : Char) (r : Str) :
    restOf isoPat (c :: r) = if c = ':' then (matchDate (r.dropWhile isPySpace)).map (·.2) else none := by
  rw [restOf_m, isoPat, m_colon, m_seq, m_spaces]
  · rw [m_datePat]
    unfold matchDate
    cases matchDatePat s%"dddd-dd-ddTdd:dd:ddZ" (r.dropWhile isPySpace) <;> rfl
  · intro x r hx
    rw [m_datePat]
    have : dateChar 'd' x = false := by
      unfold dateChar
      rw [if_pos rfl]
      exact space_not_digit x hx
    unfold matchDatePat
    rw [this]
    rfl

theorem m_plus_set (items : List CItem) (p : Char → Bool) (hp : setTest {} false items = p) (c : Char) (r : Str) :
    restOf (.plus (.set false items)) (c :: r) = if p c then some (r.dropWhile p) else none := by
  rw [restOf_m, Pat.plus, m_seq, m_set]
  dsimp only
  rw [hp]
  by_cases hc : p c
  · rw [if_pos hc, if_pos hc, m_star_set, hp, starK_max rfl]
  · rw [if_neg hc, if_neg hc]

theorem restOf_keyword (c : Char) (r : Str) : restOf keywordPat (c :: r) = if isLetterAZ c then some (r.dropWhile isLetterAZ) else none :=
  m_plus_set _ _ (by
    funext x
    simp [setTest, wordSet, CItem.test, isLetterAZ, isLowerAZ, isUpperAZ]) c r

theorem restOf_newline (c : Char) (r : Str) : restOf newlinePat (c :: r) = if c = '\n' then some (r.dropWhile (· = '\n')) else none := by
  have := m_plus_set [.chr '\n'] (· = '\n') (by funext x; by_cases h : x = '\n' <;> simp [setTest, CItem.test, h]) c r
  rw [newlinePat, this]
  by_cases h : c = '\n' <;> simp [h]

theorem restOf_blank (c : Char) (r : Str) :
    restOf blankPat (c :: r) = if c = ' ' ∨ c = '\t' then some (r.dropWhile (fun c => c = ' ' ∨ c = '\t')) else none := by
  have := m_plus_set blankSet (fun c => c = ' ' ∨ c = '\t') (by
    funext x
    by_cases h : x = ' ' <;> by_cases h' : x = '\t' <;> simp [setTest, blankSet, CItem.test, h, h']) c r
  rw [blankPat, this]
  by_cases h : c = ' ' ∨ c = '\t' <;> simp [h]

theorem restOf_line (c : Char) (r : Str) :
    restOf linePat (c :: r) = if c = ':' then (if r.takeWhile isDot = [] then none else some (r.dropWhile isDot)) else none := by
  rw [restOf_m, linePat, m_colon, m_any_plus _ (fun s => s)]

theorem restOf_comment (c : Char) (r : Str) : restOf commentPat (c :: r) = if c = '#' then some (r.dropWhile isDot) else none := by
  have ht : setTest {} true [.chr '\n'] = isDot := any_test rfl
  rw [restOf_m, commentPat, m_seq, m_chr rfl]
  by_cases h : c = '#'
  · subst h
    have : dropPrefix? ['#'] ('#' :: r) = some r := by simp [dropPrefix?]
    rw [this, if_pos rfl]
    dsimp only
    unfold Pat.any
    rw [m_star_set, ht, starK_max rfl]
  · have : dropPrefix? ['#'] (c :: r) = none := by simp [dropPrefix?, Ne.symm h]
    rw [this, if_neg h]

theorem m_altLits {α : Type} (len : Nat) (k : MSt → Option α) (ws : List Str) (hw : ws ≠ []) (s : Str) (caps : List (Nat × Str)) :
    Pat.m {} len (altLits ws) k ⟨s, caps⟩ = ws.findSome? fun w => match dropPrefix? w s with
      | some r => k ⟨r, caps⟩
      | none => none := by
  induction ws with
  | nil => exact absurd rfl hw
  | cons w ws ih =>
    cases ws with
    | nil =>
      rw [altLits, m_litPat rfl, List.findSome?_cons]
      cases dropPrefix? w s with
      | none => rfl
      | some r => cases h : k ⟨r, caps⟩ <;> simp [h]
    | cons v ws =>
      rw [altLits, m_alt, m_litPat rfl, ih (by simp), List.findSome?_cons (a := w)]
      cases dropPrefix? w s with
      | none => rfl
      | some r => cases h : k ⟨r, caps⟩ <;> simp [h]

theorem hex_test : setTest {} false hexSet = isLowerHex := by
  funext x
  simp [setTest, hexSet, CItem.test, isLowerHex, isDigit09, Bool.or_comm]

/-- The rest of the pattern, after the name. -/
theorem m_afterName (len : Nat) (s : Str) (caps : List (Nat × Str)) :
    Pat.m {} len (.seq (.chr ':') (.seq spaces (.grp 4 (.star (.set false hexSet))))) (fun m => some m.rest) ⟨s, caps⟩ =
      (dropPrefix? [':'] s).map fun r => (r.dropWhile isPySpace).dropWhile isLowerHex := by
  have hs : ∀ (r : Str) (caps' : List (Nat × Str)),
      Pat.m {} len (.grp 4 (.star (.set false hexSet))) (fun m => some m.rest) ⟨r, caps'⟩ = some (r.dropWhile isLowerHex) := by
    intro r caps'
    rw [m_grp, m_star_set, hex_test]
    exact starK_max rfl
  rw [m_seq, m_chr rfl]
  cases dropPrefix? [':'] s with
  | none => rfl
  | some r =>
    dsimp only
    rw [m_seq, spaces, m_star_set, space_test rfl, starK_max]
    · rw [hs]
      rfl
    · rw [hs]
      rfl

theorem dropPrefix_append (a b s : Str) : dropPrefix? (a ++ b) s = (dropPrefix? a s).bind (dropPrefix? b) := by
  induction a generalizing s with
  | nil => cases s <;> simp [dropPrefix?]
  | cons c a ih =>
    rw [List.cons_append, dropPrefix_cons, dropPrefix_cons c a]
    cases dropPrefix? [c] s with
    | none => rfl
    | some r => exact ih r

theorem restOf_checksum (c : Char) (r : Str) :
    restOf checksumPat (c :: r) = if c = ':' then (matchChecksum (r.dropWhile isPySpace)).map (·.2) else none := by
  have key : ∀ (v : Str) (caps : List (Nat × Str)) (len : Nat), Pat.m {} len (.seq (.grp 3 (altLits checksumNames)) (.seq (.chr ':') (.seq spaces
      (.grp 4 (.star (.set false hexSet)))))) (fun m => some m.rest) ⟨v, caps⟩ = (matchChecksum v).map (·.2) := by
    intro v caps len
    rw [m_seq, m_grp, m_altLits _ _ _ (by decide)]
    unfold matchChecksum
    have hl : ∀ l : List Str, (l.findSome? fun w => match dropPrefix? w v with
        | some r => Pat.m {} len (.seq (.chr ':') (.seq spaces (.grp 4 (.star (.set false hexSet))))) (fun m => some m.rest)
            (MSt.close 3 ⟨v, caps⟩ ⟨r, caps⟩)
        | none => none) = ((l.find? fun n => startsWith v (n ++ [':'])).map fun n =>
          ((v.drop (n.length + 1)).dropWhile isPySpace).dropWhile isLowerHex) := by
      intro l
      induction l with
      | nil => rfl
      | cons n l ih =>
        rw [List.findSome?_cons, List.find?_cons, ih]
        have e : (match dropPrefix? n v with
            | some r => Pat.m {} len (.seq (.chr ':') (.seq spaces (.grp 4 (.star (.set false hexSet))))) (fun m => some m.rest)
                (MSt.close 3 ⟨v, caps⟩ ⟨r, caps⟩)
            | none => none) = (dropPrefix? (n ++ [':']) v).map fun r => (r.dropWhile isPySpace).dropWhile isLowerHex := by
          rw [dropPrefix_append]
          cases dropPrefix? n v with
          | none => rfl
          | some r => exact m_afterName len r _
        rw [e]
        unfold dropPrefix? startsWith
        by_cases hn : (n ++ [':']).isPrefixOf v
        · rw [if_pos hn, hn, List.length_append]
          rfl
        · rw [if_neg hn, Bool.eq_false_iff.2 hn]
          rfl
    rw [hl checksumNames, Option.map_map]
    rfl
  rw [restOf_m, checksumPat, m_colon, m_seq, m_spaces]
  · rw [key]
  · intro x r hx
    rw [key]
    unfold matchChecksum
    have : checksumNames.find? (fun n => startsWith (x :: r) (n ++ [':'])) = none := by
      rw [List.find?_eq_none]
      intro n hn hs
      have hf : ∀ n ∈ checksumNames, ∀ c ∈ n.head?, isPySpace c = false := by decide +kernel
      have hne : ∀ n ∈ checksumNames, n ≠ [] := by decide +kernel
      cases n with
      | nil => exact hne [] hn rfl
      | cons y n =>
        have h1 := hf _ hn y (by simp)
        unfold startsWith at hs
        simp at hs
        rw [hs.1, hx] at h1
        cases h1
    rw [this]
    rfl

end Spdx.TvLexing
