import Verif.Lemmas.PatRun
import Verif.Lemmas.Regex
/- The texts that a pattern matches, without regard to order and groups. -/
namespace Spdx
open Re

/-- A pattern as a regular expression of Py/Regex.  (Anchors only occur at the ends, and are treated apart.) -/
def Pat.toRe (E : ReFlags) : Pat → Re
  | .eps => .eps
  | .set neg items => .set (setTest E neg items)
  | .seq a b => .seq (toRe E a) (toRe E b)
  | .alt a b => .alt (toRe E a) (toRe E b)
  | .star a => .star (toRe E a)
  | .grp _ a => toRe E a
  | .bos | .eos | .notBos => .empty

/-- No anchors. -/
def Pat.plain : Pat → Bool
  | .eps | .set _ _ => true
  | .seq a b | .alt a b => plain a && plain b
  | .star a | .grp _ a => plain a
  | .bos | .eos | .notBos => false

namespace PatLang
variable {E : ReFlags} {len : Nat}

private theorem star_forward {r : Re} {f : MSt → List MSt} (hf : ∀ s s', s' ∈ f s → ∃ w, s.rest = w ++ s'.rest ∧ Matches r w) :
    ∀ (n : Nat) (s s' : MSt), s' ∈ starRun f n s → ∃ w, s.rest = w ++ s'.rest ∧ Matches (.star r) w := by
  intro n
  induction n with
  | zero =>
    intro s s' h
    rw [starRun, List.mem_singleton] at h
    subst h
    exact ⟨[], rfl, .starNil⟩
  | succ n ih =>
    intro s s' h
    rw [starRun, List.mem_append, List.mem_flatMap, List.mem_singleton] at h
    rcases h with ⟨t, ht, h⟩ | h
    · obtain ⟨w, e, hw⟩ := hf s t (List.mem_filter.1 ht).1
      obtain ⟨v, e', hv⟩ := ih t s' h
      exact ⟨w ++ v, by rw [e, e', List.append_assoc], .starCons hw hv⟩
    · subst h
      exact ⟨[], rfl, .starNil⟩

theorem run_forward (p : Pat) (hp : p.plain = true) : ∀ (s s' : MSt), s' ∈ p.run E len s → ∃ w, s.rest = w ++ s'.rest ∧ Matches (p.toRe E) w := by
  induction p with
  | eps =>
    intro s s' h
    rw [Pat.run, List.mem_singleton] at h
    subst h
    exact ⟨[], rfl, .eps⟩
  | set neg items =>
    intro s s' h
    rw [Pat.run] at h
    cases e : s.rest with
    | nil => rw [e] at h; cases h
    | cons c r =>
      rw [e] at h
      dsimp only at h
      split at h
      · rename_i hc
        rw [List.mem_singleton] at h
        subst h
        exact ⟨[c], rfl, .set hc⟩
      · cases h
  | seq a b iha ihb =>
    rw [Pat.plain, Bool.and_eq_true] at hp
    intro s s' h
    rw [Pat.run, List.mem_flatMap] at h
    obtain ⟨t, ht, h⟩ := h
    obtain ⟨w, e, hw⟩ := iha hp.1 s t ht
    obtain ⟨v, e', hv⟩ := ihb hp.2 t s' h
    exact ⟨w ++ v, by rw [e, e', List.append_assoc], .seq hw hv⟩
  | alt a b iha ihb =>
    rw [Pat.plain, Bool.and_eq_true] at hp
    intro s s' h
    rw [Pat.run, List.mem_append] at h
    rcases h with h | h
    · obtain ⟨w, e, hw⟩ := iha hp.1 s s' h
      exact ⟨w, e, .altL hw⟩
    · obtain ⟨w, e, hw⟩ := ihb hp.2 s s' h
      exact ⟨w, e, .altR hw⟩
  | star a ih =>
    intro s s' h
    rw [Pat.run] at h
    exact star_forward (ih hp) _ s s' h
  | grp n a ih =>
    intro s s' h
    rw [Pat.run, List.mem_map] at h
    obtain ⟨t, ht, rfl⟩ := h
    exact ih hp s t ht
  | bos => cases hp
  | eos => cases hp
  | notBos => cases hp

private theorem star_backward {r : Re} {f : MSt → List MSt}
    (hf : ∀ (w v : Str) (s : MSt), s.rest = w ++ v → Matches r w → ∃ s' ∈ f s, s'.rest = v) :
    ∀ (n : Nat) (w v : Str) (s : MSt), s.rest = w ++ v → s.rest.length ≤ n → Matches (.star r) w → ∃ s' ∈ starRun f n s, s'.rest = v := by
  intro n
  induction n with
  | zero =>
    intro w v s e hl h
    have : s.rest = [] := List.eq_nil_of_length_eq_zero (by omega)
    rw [this] at e
    have := List.append_eq_nil_iff.1 e.symm
    exact ⟨s, by simp [starRun], by rw [this.2]; assumption⟩
  | succ n ih =>
    intro w v s e hl h
    cases w with
    | nil => exact ⟨s, by simp [starRun], e⟩
    | cons c w =>
      obtain ⟨w1, w2, ew, h1, h2⟩ := (star_cons_iff _ _ _).1 h
      obtain ⟨t, ht, et⟩ := hf (c :: w1) (w2 ++ v) s (by rw [e, ew]; simp) h1
      have hlt : t.rest.length < s.rest.length := by rw [et, e, ew]; simp; omega
      obtain ⟨s', hs', e'⟩ := ih w2 v t et (by omega) h2
      refine ⟨s', ?_, e'⟩
      rw [starRun, List.mem_append, List.mem_flatMap]
      exact .inl ⟨t, List.mem_filter.2 ⟨ht, decide_eq_true hlt⟩, hs'⟩

theorem run_backward (p : Pat) (hp : p.plain = true) :
    ∀ (w v : Str) (s : MSt), s.rest = w ++ v → Matches (p.toRe E) w → ∃ s' ∈ p.run E len s, s'.rest = v := by
  induction p with
  | eps =>
    intro w v s e h
    cases h
    exact ⟨s, by simp [Pat.run], e⟩
  | set neg items =>
    intro w v s e h
    obtain ⟨c, rfl, hc⟩ := (set_iff _ _).1 h
    rw [Pat.run, e]
    dsimp only [List.cons_append, List.nil_append]
    rw [if_pos hc]
    exact ⟨_, List.mem_singleton_self _, rfl⟩
  | seq a b iha ihb =>
    rw [Pat.plain, Bool.and_eq_true] at hp
    intro w v s e h
    obtain ⟨w1, w2, rfl, h1, h2⟩ := (seq_iff _ _ _).1 h
    obtain ⟨t, ht, et⟩ := iha hp.1 w1 (w2 ++ v) s (by rw [e, List.append_assoc]) h1
    obtain ⟨s', hs', e'⟩ := ihb hp.2 w2 v t et h2
    exact ⟨s', by rw [Pat.run, List.mem_flatMap]; exact ⟨t, ht, hs'⟩, e'⟩
  | alt a b iha ihb =>
    rw [Pat.plain, Bool.and_eq_true] at hp
    intro w v s e h
    rcases (alt_iff _ _ _).1 h with h | h
    · obtain ⟨s', hs', e'⟩ := iha hp.1 w v s e h
      exact ⟨s', by rw [Pat.run, List.mem_append]; exact .inl hs', e'⟩
    · obtain ⟨s', hs', e'⟩ := ihb hp.2 w v s e h
      exact ⟨s', by rw [Pat.run, List.mem_append]; exact .inr hs', e'⟩
  | star a ih =>
    intro w v s e h
    rw [Pat.run]
    exact star_backward (ih hp) _ w v s e (Nat.le_refl _) h
  | grp n a ih =>
    intro w v s e h
    obtain ⟨s', hs', e'⟩ := ih hp w v s e h
    exact ⟨s.close n s', by rw [Pat.run, List.mem_map]; exact ⟨s', hs', rfl⟩, e'⟩
  | bos => cases hp
  | eos => cases hp
  | notBos => cases hp

/-- `re.match` without anchors: a prefix of the text is in the language. -/
theorem first_pref (p : Pat) (hp : p.plain = true) (s : Str) : (p.first E s).isSome = (p.toRe E).pref s := by
  rw [Bool.eq_iff_iff, pref_iff]
  unfold Pat.first
  constructor
  · intro h
    obtain ⟨m, hm⟩ := Option.isSome_iff_exists.1 h
    obtain ⟨w, e, hw⟩ := run_forward p hp _ m (List.mem_of_mem_head? hm)
    exact ⟨w, m.rest, e, hw⟩
  · rintro ⟨w, v, rfl, hw⟩
    obtain ⟨m, hm, -⟩ := run_backward (E := E) (len := (w ++ v).length) p hp w v ⟨w ++ v, []⟩ rfl hw
    cases e : p.run E (w ++ v).length ⟨w ++ v, []⟩ with
    | nil => rw [e] at hm; cases hm
    | cons x l => rfl

/-- `^p$` -/
def anchor (p : Pat) : Pat := .seq .bos (.seq p .eos)

theorem first_anchored (p : Pat) (hp : p.plain = true) (s : Str) : ((anchor p).first E s).isSome = (p.toRe E).anchored s := by
  have hr : (anchor p).run E s.length ⟨s, []⟩ = (p.run E s.length ⟨s, []⟩).flatMap (Pat.run E s.length .eos) := by
    rw [anchor, Pat.run, Pat.run]
    dsimp only
    rw [if_pos rfl, List.flatMap_cons, List.flatMap_nil, List.append_nil, Pat.run]
  unfold Pat.first
  rw [hr, Bool.eq_iff_iff, anchored_iff]
  constructor
  · intro h
    obtain ⟨m, hm⟩ := Option.isSome_iff_exists.1 h
    obtain ⟨t, ht, hm⟩ := List.mem_flatMap.1 (List.mem_of_mem_head? hm)
    obtain ⟨w, e, hw⟩ := run_forward p hp _ t ht
    dsimp only at e
    rw [Pat.run] at hm
    split at hm
    · rename_i hc
      rcases hc with hc | hc
      · exact .inl (by rw [e, hc, List.append_nil]; exact hw)
      · exact .inr ⟨w, by rw [e, hc], hw⟩
    · cases hm
  · have back : ∀ w v, s = w ++ v → v = [] ∨ v = ['\n'] → Matches (p.toRe E) w →
        ((p.run E s.length ⟨s, []⟩).flatMap (Pat.run E s.length .eos)).head?.isSome = true := by
      intro w v e hv hw
      obtain ⟨t, ht, et⟩ := run_backward (E := E) (len := s.length) p hp w v ⟨s, []⟩ e hw
      have hm : t ∈ (p.run E s.length ⟨s, []⟩).flatMap (Pat.run E s.length .eos) := by
        refine List.mem_flatMap.2 ⟨t, ht, ?_⟩
        rw [Pat.run, if_pos (by rw [et]; exact hv)]
        exact List.mem_singleton_self _
      cases e : (p.run E s.length ⟨s, []⟩).flatMap (Pat.run E s.length .eos) with
      | nil => rw [e] at hm; cases hm
      | cons x l => rfl
    rintro (h | ⟨w, e, h⟩)
    · exact back s [] (by simp) (.inl rfl) h
    · exact back w ['\n'] e (.inr rfl) h

/-! ## The same texts -/

/-- The same language. -/
def Equiv (a b : Re) : Prop := ∀ u, Matches a u ↔ Matches b u

theorem Equiv.refl (a : Re) : Equiv a a := fun _ => Iff.rfl
theorem Equiv.symm {a b : Re} (h : Equiv a b) : Equiv b a := fun u => (h u).symm
theorem Equiv.trans {a b c : Re} (h : Equiv a b) (h' : Equiv b c) : Equiv a c := fun u => (h u).trans (h' u)

theorem equiv_set {p q : Char → Bool} (h : ∀ c, p c = q c) : Equiv (.set p) (.set q) := by
  rw [show p = q from funext h]
  exact .refl _

theorem equiv_seq {a b a' b' : Re} (ha : Equiv a a') (hb : Equiv b b') : Equiv (.seq a b) (.seq a' b') := fun u => by
  rw [seq_iff, seq_iff]
  simp only [ha _, hb _]

theorem equiv_alt {a b a' b' : Re} (ha : Equiv a a') (hb : Equiv b b') : Equiv (.alt a b) (.alt a' b') := fun u => by
  rw [alt_iff, alt_iff, ha, hb]

private theorem star_mono {a b : Re} (h : ∀ u, Matches a u → Matches b u) {r : Re} {u : Str} (hu : Matches r u) (e : r = .star a) :
    Matches (.star b) u := by
  induction hu with
  | starNil => exact .starNil
  | starCons h1 _ _ ih => cases e; exact .starCons (h _ h1) (ih rfl)
  | _ => cases e

theorem equiv_star {a b : Re} (h : Equiv a b) : Equiv (.star a) (.star b) := fun _ =>
  ⟨fun hu => star_mono (fun v => (h v).1) hu rfl, fun hu => star_mono (fun v => (h v).2) hu rfl⟩

theorem equiv_opt {a b : Re} (h : Equiv a b) : Equiv (.alt a .eps) (opt b) := fun u => by
  rw [alt_iff, opt_iff, eps_iff, h, or_comm]

theorem equiv_assoc {a b c d : Re} (h : Equiv (.seq a (.seq b c)) d) : Equiv (.seq (.seq a b) c) d := fun u => by
  rw [← h, seq_iff, seq_iff]
  constructor
  · rintro ⟨s, t, rfl, h1, h2⟩
    obtain ⟨x, y, rfl, h3, h4⟩ := (seq_iff _ _ _).1 h1
    exact ⟨x, y ++ t, by simp, h3, .seq h4 h2⟩
  · rintro ⟨s, t, rfl, h1, h2⟩
    obtain ⟨x, y, rfl, h3, h4⟩ := (seq_iff _ _ _).1 h2
    exact ⟨s ++ x, y, by simp, .seq h1 h3, h4⟩

theorem equiv_eps_seq {a b : Re} (h : Equiv a b) : Equiv a (.seq .eps b) := fun u => by
  rw [h, seq_iff]
  constructor
  · intro hu
    exact ⟨[], u, rfl, .eps, hu⟩
  · rintro ⟨s, t, rfl, hs, ht⟩
    cases hs
    exact ht

theorem equiv_seq_eps {a b : Re} (h : Equiv a b) : Equiv a (.seq b .eps) := fun u => by
  rw [h, seq_iff]
  constructor
  · intro hu
    exact ⟨u, [], by simp, hu, .eps⟩
  · rintro ⟨s, t, rfl, hs, ht⟩
    cases ht
    rwa [List.append_nil]

theorem equiv_upTo {a : Pat} {b : Re} (h : Equiv (a.toRe E) b) (n : Nat) : Equiv ((Pat.upTo a n).toRe E) (Re.upTo b n) := by
  induction n with
  | zero => exact .refl _
  | succ n ih => exact equiv_opt (equiv_seq h ih)

/-- `a{n}` and then something. -/
theorem equiv_times {a c : Pat} {b d : Re} (h : Equiv (a.toRe E) b) (h' : Equiv (c.toRe E) d) (n : Nat) :
    Equiv ((Pat.times a n c).toRe E) (.seq (Re.rep b n) d) := by
  induction n with
  | zero => exact equiv_eps_seq h'
  | succ n ih => exact ((equiv_assoc (.refl _)).trans (equiv_seq h.symm ih.symm)).symm

theorem equiv_rep {a : Pat} {b : Re} (h : Equiv (a.toRe E) b) (n : Nat) : Equiv ((Pat.times a n .eps).toRe E) (Re.rep b n) :=
  (equiv_times h (.refl _) n).trans (equiv_seq_eps (.refl _)).symm

theorem equiv_between {a : Pat} {b : Re} (h : Equiv (a.toRe E) b) (n m : Nat) :
    Equiv ((Pat.times a n (Pat.upTo a (m - n))).toRe E) (Re.between b n m) :=
  equiv_times h (equiv_upTo h _) n

end PatLang
end Spdx
