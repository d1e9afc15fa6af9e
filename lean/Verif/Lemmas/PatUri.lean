import Verif.Lemmas.PatSame
import Verif.Model.Patterns
/- The patterns of Model/Uri, next to their texts. -/
namespace Spdx.PatUri
open Spdx Re PatLang Pat

def alnum : List CItem := [.range 'a' 'z', .range 'A' 'Z', .range '0' '9']
def chrs (s : Str) : List CItem := s.map .chr

/-- `[^c]+` -/
def notChrs (c : Char) : Pat := .plus (.set true [.chr c])

theorem any_chrs (E : ReFlags) (s : Str) (c : Char) : ((chrs s).any (·.test E c)) = s.contains c := by
  unfold chrs
  rw [List.any_map, Bool.eq_iff_iff, List.any_eq_true, List.contains_iff_mem]
  constructor
  · rintro ⟨x, hx, h⟩
    have : c = x := by simpa [CItem.test] using h
    rwa [this]
  · intro h
    exact ⟨c, h, by simp [CItem.test]⟩

theorem set_plain {E : ReFlags} (hE : E.ignoreCase = false) (items : List CItem) (c : Char) :
    setTest E false items c = items.any (·.test E c) := by
  unfold setTest
  rw [hE]
  simp

theorem same_cls {E : ReFlags} (hE : E.ignoreCase = false) {items : List CItem} {p : Char → Bool} (h : ∀ c, items.any (·.test E c) = p c) :
    Equiv ((cls items).toRe E) (.set p) := equiv_set fun c => (set_plain hE items c).trans (h c)

theorem same_notChr {E : ReFlags} (hE : E.ignoreCase = false) (c : Char) : Equiv ((notChrs c).toRe E) (notChr c) :=
  same_plus (equiv_set fun d => by
    unfold setTest
    rw [hE]
    cases hd : d == c <;> simp [CItem.test, bne, hd])

theorem flag : ({} : ReFlags).ignoreCase = false := rfl

/-- Item by item. -/
macro "same_items" : tactic => `(tactic| repeat' first
  | with_reducible exact same_lits_end flag _
  | with_reducible exact same_chr flag _
  | with_reducible exact same_dot flag
  | with_reducible exact same_notChr flag _
  | with_reducible refine same_lits flag _ (by decide) (by simp) (by simp) ?_
  | with_reducible refine same_cat_lits (by decide) ?_ ?_
  | with_reducible apply same_cat
  | with_reducible apply same_cat_one
  | with_reducible apply same_alts
  | with_reducible apply same_alts_one
  | with_reducible apply same_grp
  | with_reducible apply same_opt
  | with_reducible apply same_plus
  | with_reducible apply same_star
  | with_reducible apply equiv_upTo
  | with_reducible apply equiv_rep
  | with_reducible apply equiv_between
  | with_reducible apply same_cls flag)

def maven : List Pat := [notChrs ':', .chr ':', notChrs ':', .opt (.grp 1 (cat [.chr ':', notChrs ':']))]

theorem maven_parsed : parsePattern PatText.mavenCentral = some (cat (.bos :: maven ++ [.eos]), []) := by decide +kernel

theorem maven_same : Equiv ((cat maven).toRe {}) mavenRe := by
  unfold maven mavenRe
  same_items

def two (c : Char) : List Pat := [notChrs c, .chr c, notChrs c]

theorem npm_parsed : parsePattern PatText.npm = some (cat (.bos :: two '@' ++ [.eos]), []) := by decide +kernel
theorem nuget_parsed : parsePattern PatText.nuget = some (cat (.bos :: two '/' ++ [.eos]), []) := by decide +kernel
theorem bower_parsed : parsePattern PatText.bower = some (cat (.bos :: two '#' ++ [.eos]), []) := by decide +kernel

theorem two_same (c : Char) : Equiv ((cat (two c)).toRe {}) (seqs [notChr c, chr c, notChr c]) := by
  unfold two
  same_items

def purl : List Pat := lits s%"pkg:" ++ [.plus .any, .opt (.grp 1 (cat [.chr '/', .plus .any])), .chr '/', .plus .any,
  .opt (.grp 2 (cat [.chr '@', .plus .any])), .opt (.grp 3 (cat [.chr '?', .plus .any])), .opt (.grp 4 (cat [.chr '#', .plus .any]))]

theorem purl_parsed : parsePattern PatText.purl = some (cat (.bos :: purl ++ [.eos]), []) := by decide +kernel

theorem purl_same : Equiv ((cat purl).toRe {}) purlRe := by
  unfold purl purlRe
  same_items

def hexAny : List CItem := [.range '0' '9', .range 'a' 'f', .range 'A' 'F']

theorem hexAny_test (c : Char) : hexAny.any (·.test {} c) = isHexAny c := by
  simp [hexAny, CItem.test, isHexAny, isDigit09, Bool.or_assoc]

def swh : List Pat := lits s%"swh:1:" ++
  [.grp 1 (Pat.alts [cat (lits s%"snp"), cat (lits s%"rel"), cat (lits s%"rev"), cat (lits s%"dir"), cat (lits s%"cnt")]), .chr ':',
   .times (cls hexAny) 40 .eps]

set_option maxRecDepth 10000 in
theorem swh_parsed : parsePattern PatText.swh = some (cat (.bos :: swh ++ [.eos]), []) := by decide +kernel

theorem swh_same : Equiv ((cat swh).toRe {}) swhRe := by
  unfold swh swhRe
  same_items
  exact hexAny_test

def gitoid : List Pat := lits s%"gitoid:" ++
  [.grp 1 (Pat.alts [cat (lits s%"blob"), cat (lits s%"tree"), cat (lits s%"commit"), cat (lits s%"tag")]), .chr ':',
   .grp 2 (Pat.alts [cat (lits s%"sha1:" ++ [.times (cls hexAny) 40 .eps]), cat (lits s%"sha256:" ++ [.times (cls hexAny) 64 .eps])])]

set_option maxRecDepth 10000 in
theorem gitoid_parsed : parsePattern PatText.gitoid = some (cat (.bos :: gitoid ++ [.eos]), []) := by decide +kernel

theorem gitoid_same : Equiv ((cat gitoid).toRe {}) gitoidRe := by
  unfold gitoid gitoidRe
  same_items
  · exact hexAny_test
  · exact hexAny_test

theorem alnum_test (E : ReFlags) (c : Char) : alnum.any (·.test E c) = isAlnumAscii c := by
  simp [alnum, CItem.test, isAlnumAscii, isLowerAZ, isUpperAZ, isDigit09, Bool.or_assoc]

def cpe22 : List Pat := .chr 'c' :: cls (chrs s%"pP") :: cls (chrs s%"eE") :: (lits s%":/" ++ [.opt (cls (chrs s%"AHOaho")),
  .upTo (.grp 1 (cat [.chr ':', .star (cls ([.range 'A' 'Z', .range 'a' 'z', .range '0' '9'] ++ chrs s%"._-~%"))])) 6])

set_option maxRecDepth 10000 in
theorem cpe22_parsed : parsePattern PatText.cpe22 = some (cat (.bos :: cpe22 ++ [.eos]), []) := by decide +kernel

theorem cpe22_same : Equiv ((cat cpe22).toRe {}) cpe22Re := by
  unfold cpe22 cpe22Re
  same_items
  · simp [chrs, CItem.test]
  · simp [chrs, CItem.test]
  · intro c; exact any_chrs _ _ c
  · intro c
    rw [List.any_append, any_chrs]
    show ((isUpperAZ c || (isLowerAZ c || (isDigit09 c || false))) || _) = _
    unfold isAlnumAscii
    cases isUpperAZ c <;> cases isLowerAZ c <;> simp

def letters : List CItem := [.range 'a' 'z', .range 'A' 'Z']
theorem letters_test (E : ReFlags) (c : Char) : letters.any (·.test E c) = (isLowerAZ c || isUpperAZ c) := by
  show (isLowerAZ c || (isUpperAZ c || false)) = _
  rw [Bool.or_false]

/-- A component, with the numbers of its groups. -/
def cpe23Part (n : Nat) : Pat := .grp n (cat [.chr ':', .grp (n + 1) (Pat.alts [
  .grp (n + 2) (cat [.grp (n + 3) (Pat.alts [.star (.chr '?'), .opt (.chr '*')]),
    .plus (.grp (n + 4) (Pat.alts [cls (alnum ++ chrs s%"-._"),
      .grp (n + 5) (cat [.chr '\\', cls (chrs s%"\\*?!\"#$$%&'()+,/:;<=>@[]^`{|}~")])])),
    .grp (n + 6) (Pat.alts [.star (.chr '?'), .opt (.chr '*')])]),
  cls (chrs s%"*-")])])

def cpe23Language : Pat := .grp 8 (cat [.chr ':', .grp 9 (Pat.alts [
  .grp 10 (cat [.times (cls letters) 2 (.upTo (cls letters) (3 - 2)),
    .opt (.grp 11 (cat [.chr '-', .grp 12 (Pat.alts [.times (cls letters) 2 .eps, .times (cls [.range '0' '9']) 3 .eps])]))]),
  cls (chrs s%"*-")])])

def cpe23 : List Pat := lits s%"cpe:2.3:" ++ [cls (chrs s%"aho*-"), .times (cpe23Part 1) 5 .eps, cpe23Language, .times (cpe23Part 13) 4 .eps]

set_option maxRecDepth 10000 in
theorem cpe23_parsed : parsePattern PatText.cpe23 = some (cat (.bos :: cpe23 ++ [.eos]), []) := by decide +kernel

theorem cpe23Part_same (n : Nat) : Equiv ((cpe23Part n).toRe {}) (seqs [chr ':', cpe23Comp]) := by
  unfold cpe23Part cpe23Comp
  same_items
  · intro c
    rw [List.any_append, any_chrs, alnum_test]
  · intro c
    rw [any_chrs]
    have : ∀ x, x ∈ s%"\\*?!\"#$$%&'()+,/:;<=>@[]^`{|}~" ↔ x ∈ s%"\\*?!\"#$%&'()+,/:;<=>@[]^`{|}~" := by
      intro x
      simp only [List.mem_cons, List.not_mem_nil, or_false]
      constructor <;> intro h <;> simp only [or_self_left] at h ⊢ <;> exact h
    rw [Bool.eq_iff_iff, List.contains_iff_mem, List.contains_iff_mem]
    exact this c
  · simp [chrs, CItem.test]

theorem cpe23_same : Equiv ((cat cpe23).toRe {}) cpe23Re := by
  unfold cpe23 cpe23Re cpe23Language
  same_items
  · intro c; exact any_chrs _ _ c
  · exact cpe23Part_same 1
  · exact letters_test {}
  · exact letters_test {}
  · intro c; simp [CItem.test, isDigit09]
  · simp [chrs, CItem.test]
  · exact cpe23Part_same 13

/-! ## With `re.IGNORECASE` -/

/-- The flags, with an arbitrary `\w`. -/
def ci (w : Char → Bool) : ReFlags := { ignoreCase := true, isWord := w }

theorem ci_flag (w : Char → Bool) : (ci w).ignoreCase = true := rfl

/-- Item by item. -/
macro "same_ci_items" : tactic => `(tactic| repeat' first
  | with_reducible exact same_ciDot (ci_flag _)
  | with_reducible exact same_ciChr (ci_flag _) (by decide) (by decide)
  | with_reducible exact same_ciLits_end (ci_flag _) _ (by decide)
  | with_reducible refine same_ciLits (ci_flag _) _ (by decide) (by decide) (by simp) (by simp) ?_
  | with_reducible refine same_cat_lits (by decide) ?_ ?_
  | with_reducible apply same_cat
  | with_reducible apply same_cat_one
  | with_reducible apply same_alts
  | with_reducible apply same_alts_one
  | with_reducible apply same_grp
  | with_reducible apply same_opt
  | with_reducible apply same_plus
  | with_reducible apply same_star
  | with_reducible apply equiv_upTo
  | with_reducible apply equiv_rep
  | with_reducible apply equiv_between)

def lowerNum : List CItem := [.range 'a' 'z', .range '0' '9']

/-- `url_pattern`, with the number of its first group. -/
def url (n : Nat) : List Pat := [
  .opt (.grp n (Pat.alts [cat (lits s%"http://www."), cat (lits s%"https://www."), cat (lits s%"http://"), cat (lits s%"https://"),
    cat (lits s%"ssh://"), cat (lits s%"git://"), cat (lits s%"svn://"), cat (lits s%"sftp://"), cat (lits s%"ftp://")])),
  .opt (.grp (n + 1) (cat [.plus (cls (.word :: chrs s%"-.!~*'()%;:&=+$,")), .chr '@'])),
  .plus (cls lowerNum),
  .upTo (.grp (n + 2) (cat [.times (cls (chrs s%"-.")) 1 .eps, .plus (cls lowerNum)])) (100 - 0),
  .chr '.',
  .times (cls [.range 'a' 'z']) 2 (.upTo (cls [.range 'a' 'z']) (5 - 2)),
  .opt (.grp (n + 3) (cat [.chr ':', .times (cls [.range '0' '9']) 1 (.upTo (cls [.range '0' '9']) (5 - 1))])),
  .opt (.grp (n + 4) (cat [.chr '/', .star .any]))]

set_option maxRecDepth 10000 in
theorem url_parsed : parsePattern PatText.url = some (cat (url 1), []) := by decide +kernel

/-- For classes of ASCII characters: decided for the lower case letters. -/
theorem lower_decide {P : Char → Prop} [DecidablePred P] (h : ∀ n < 128, isLowerAZ (Char.ofNat n) = true → P (Char.ofNat n)) (c : Char)
    (hc : isLowerAZ c = true) : P c :=
  char_below (P := fun c => isLowerAZ c = true → P c) 128 h c (by simp [isLowerAZ] at hc; omega) hc

theorem upper_decide {P : Char → Prop} [DecidablePred P] (h : ∀ n < 128, isUpperAZ (Char.ofNat n) = true → P (Char.ofNat n)) (c : Char)
    (hc : isUpperAZ c = true) : P c :=
  char_below (P := fun c => isUpperAZ c = true → P c) 128 h c (by simp [isUpperAZ] at hc; omega) hc

theorem lowerNum_same (w : Char → Bool) : Equiv ((cls lowerNum).toRe (ci w)) (ciSet isLowerNum) :=
  same_ciSet (ci_flag w)
    (fun c => by show (isLowerAZ c || (isDigit09 c || false)) = _; rw [Bool.or_false]; rfl)
    (lower_decide (P := fun c => isLowerNum (ciUpper c) = true → isLowerNum c = true) (by decide +kernel))

theorem url_same (X : Ext) (n : Nat) : Equiv ((cat (url n)).toRe (ci X.isWord)) (urlPattern X) := by
  unfold url urlPattern
  same_ci_items
  · refine same_ciSet' (ci_flag _) (fun c => ?_) ?_
    · rw [List.any_cons, any_chrs]
      rfl
    · intro c hl i hi n1 n2 n3 ht
      rcases List.mem_cons.1 hi with rfl | hi
      · exact absurd rfl n3
      · obtain ⟨x, hx, rfl⟩ := List.mem_map.1 hi
        have hu := ciUpper_lower hl
        have : ciUpper c = x := by simpa [CItem.test] using ht
        rw [this] at hu
        exact absurd hu ((by decide : ∀ x ∈ s%"-.!~*'()%;:&=+$,", ¬ isUpperAZ x = true) x hx)
  · exact lowerNum_same _
  · refine same_once (same_ciPlain (ci_flag _) (fun c => ?_) ?_ ?_)
    · simp [chrs, CItem.test]
    · exact lower_decide (P := fun c => (c == '-' || c == '.') = false) (by decide +kernel)
    · exact upper_decide (P := fun c => (c == '-' || c == '.') = false) (by decide +kernel)
  · exact lowerNum_same _
  · refine same_ciSet (ci_flag _) (fun c => ?_) ?_
    · show (isLowerAZ c || false) = _
      rw [Bool.or_false]
    · exact lower_decide (P := fun c => isLowerAZ (ciUpper c) = true → isLowerAZ c = true) (by decide +kernel)
  · refine same_ciPlain (ci_flag _) (fun c => ?_) ?_ ?_
    · show (isDigit09 c || false) = _
      rw [Bool.or_false]
    · exact lower_decide (P := fun c => isDigit09 c = false) (by decide +kernel)
    · exact upper_decide (P := fun c => isDigit09 c = false) (by decide +kernel)

def downloadLocation : Pat := .grp 1 (Pat.alts [
  .grp 2 (cat (.opt (.grp 3 (cat [.grp 4 (Pat.alts [cat (lits s%"git"), cat (lits s%"hg"), cat (lits s%"svn"), cat (lits s%"bzr")]), .chr '+'])) :: url 5)),
  .grp 10 (cat (lits s%"git+git@" ++ [.plus (cls (alnum ++ chrs s%".-")), .chr ':', .plus (cls (alnum ++ chrs s%"/\\.@-"))])),
  .grp 11 (cat (lits s%"bzr+lp:" ++ [.plus (cls (alnum ++ chrs s%".-"))]))])

set_option maxRecDepth 10000 in
theorem downloadLocation_parsed : parsePattern PatText.downloadLocation = some (cat [.bos, downloadLocation, .eos], []) := by decide +kernel

theorem downloadLocation_same (X : Ext) : Equiv (downloadLocation.toRe (ci X.isWord)) (downloadLocationPattern X) := by
  have hname : Equiv ((cls (alnum ++ chrs s%".-")).toRe (ci X.isWord)) (ciSet fun c => isAlnumAscii c || c == '.' || c == '-') := by
    refine same_ciSet (ci_flag _) (fun c => ?_) ?_
    · rw [List.any_append, alnum_test]
      simp [chrs, CItem.test, Bool.or_assoc]
    · exact lower_decide (P := fun c => (isAlnumAscii (ciUpper c) || ciUpper c == '.' || ciUpper c == '-') = true →
        (isAlnumAscii c || c == '.' || c == '-') = true) (by decide +kernel)
  unfold downloadLocation downloadLocationPattern
  same_ci_items
  · refine equiv_seq ?_ (url_same X 5)
    show Equiv (toRe _ (.opt _)) _
    same_ci_items
  · exact hname
  · refine same_ciSet (ci_flag _) (fun c => ?_) ?_
    · rw [List.any_append, alnum_test, any_chrs]
    · exact lower_decide (P := fun c => (isAlnumAscii (ciUpper c) || (s%"/\\.@-").contains (ciUpper c)) = true →
        (isAlnumAscii c || (s%"/\\.@-").contains c) = true) (by decide +kernel)
  · exact hname

end Spdx.PatUri
