import Verif.Props.C72
/-
C93: The command changes no file but the one named as output, running it again changes nothing, and commands that do not touch each other's
files can be run in any order.
-/
namespace Spdx.C93

/-- The commands one after the other: how each ended, and the world in the end. -/
def runAll (B : Libraries) : List CliArgs → World → List CliEnd × World
  | [], w => ([], w)
  | a :: as, w =>
    let r := cliReport B a w
    let rs := runAll B as r.2
    (r.1 :: rs.1, rs.2)

/-- Neither command writes what the other reads or writes. -/
structure Independent (a b : CliArgs) : Prop where
  outputs : a.outfile = none ∨ a.outfile ≠ b.outfile
  readsFirst : a.outfile ≠ some b.infile
  readsSecond : b.outfile ≠ some a.infile

/-! ### Helpers -/

/-- The world after a command that wrote the text, if any, to its output file and printed something. -/
private def after (a : CliArgs) (t : Option Str) (o : Str) (w : World) : World where
  files := fun n => if t.isSome ∧ a.outfile = some n then t else w.files n
  stdout := w.stdout ++ o

private theorem after_nothing (a : CliArgs) (w : World) : after a none [] w = w := by
  unfold after
  simp

/-- What a command does depends only on the content of its input. -/
private theorem effect (B : Libraries) (a : CliArgs) (hg : a.graph = false) (c : Option Str) :
    ∃ e t o, ∀ w : World, w.files a.infile = c → cliReport B a w = (e, after a t o w) := by
  have hr : ∃ r, ∀ w : World, w.files a.infile = c → readNamed B a.infile w = r := by
    unfold readNamed
    cases fileNameToFormat a.infile with
    | error e => exact ⟨_, fun w _ => rfl⟩
    | ok fmt => cases c with
      | none => exact ⟨_, fun w h => by dsimp only; rw [h]⟩
      | some t => exact ⟨_, fun w h => by dsimp only; rw [h]⟩
  obtain ⟨r, hr⟩ := hr
  cases r with
  | error e => exact ⟨_, none, [], fun w h => by unfold cliReport; rw [hr w h, after_nothing]⟩
  | ok d =>
    cases hv : validationEnd B a d with
    | some e => exact ⟨e, none, [], fun w h => by unfold cliReport; rw [hr w h]; dsimp only; rw [hv, after_nothing]⟩
    | none =>
      have ho : ∃ e t o, ∀ w : World, outputEnd B a d w = (e, after a t o w) := by
        unfold outputEnd
        by_cases hd : a.outfile = some s%"-"
        · have printed : ∀ w : World, ({ w with stdout := w.stdout ++ (serialize B.toWriteEnv .TAG_VALUE d).text } : World) =
              after a none (serialize B.toWriteEnv .TAG_VALUE d).text w := fun w => by unfold after; simp
          cases hx : (serialize B.toWriteEnv .TAG_VALUE d).raised with
          | none => exact ⟨.success, none, _, fun w => by rw [if_pos hd]; dsimp only; rw [hx, printed]⟩
          | some e => exact ⟨writeErrEnd s%"-" e, none, _, fun w => by rw [if_pos hd]; dsimp only; rw [hx, printed]⟩
        · simp only [if_neg hd, hg, Bool.false_eq_true, if_false]
          cases hn : a.outfile with
          | none => exact ⟨_, none, [], fun w => by rw [after_nothing]⟩
          | some name =>
            dsimp only
            by_cases he : name = []
            · exact ⟨_, none, [], fun w => by rw [if_pos he, after_nothing]⟩
            · simp only [if_neg he]
              unfold writeFileAny
              cases fileNameToFormat name with
              | error e => exact ⟨_, none, [], fun w => by dsimp only; rw [after_nothing]⟩
              | ok fmt =>
                dsimp only
                unfold writeToFile
                cases B.openFails name with
                | some e => exact ⟨_, none, [], fun w => by dsimp only; rw [after_nothing]⟩
                | none =>
                  dsimp only
                  have put : ∀ (w : World) (x : Str), w.put name x = after a (some x) [] w := by
                    intro w x
                    unfold World.put after
                    congr 1
                    · funext n
                      rw [hn]
                      simp [eq_comm]
                    · simp
                  cases (writeToStream B.toWriteEnv fmt d false true).raised with
                  | none => exact ⟨_, some (writeToStream B.toWriteEnv fmt d false true).text, [], fun w => by dsimp only; rw [put]⟩
                  | some e => exact ⟨_, some (writeToStream B.toWriteEnv fmt d false true).text, [], fun w => by dsimp only; rw [put]⟩
      obtain ⟨e, t, o, h⟩ := ho
      exact ⟨e, t, o, fun w hw => by unfold cliReport; rw [hr w hw]; dsimp only; rw [hv]; exact h w⟩

private theorem after_files {a : CliArgs} {n : Str} (h : a.outfile ≠ some n) (t : Option Str) (o : Str) (w : World) : (after a t o w).files n = w.files n := by
  unfold after
  simp [h]

/-! ### The theorems -/

/-- However the command ends, no file but its output has changed. -/
theorem other_files (B : Libraries) (a : CliArgs) (hg : a.graph = false) (w : World) (n : Str) (hn : a.outfile ≠ some n) :
    (cliReport B a w).2.files n = w.files n := by
  obtain ⟨e, t, o, h⟩ := effect B a hg (w.files a.infile)
  rw [h w rfl]
  exact after_files hn t o w

/-- Whatever commands are run, a file that none of them names as output stays as it is. -/
theorem history (B : Libraries) (as : List CliArgs) (w : World) (n : Str) (h : ∀ a ∈ as, a.graph = false ∧ a.outfile ≠ some n) :
    (runAll B as w).2.files n = w.files n := by
  induction as generalizing w with
  | nil => rfl
  | cons a as ih =>
    show (runAll B as (cliReport B a w).2).2.files n = _
    rw [ih _ fun b hb => h b (List.mem_cons_of_mem _ hb), other_files B a (h a List.mem_cons_self).1 w n (h a List.mem_cons_self).2]

/-- Running a command again, whose output is not its input, ends the same way and changes no file. -/
theorem again (B : Libraries) (a : CliArgs) (hg : a.graph = false) (hi : a.outfile ≠ some a.infile) (w : World) :
    (cliReport B a (cliReport B a w).2).1 = (cliReport B a w).1 ∧ (cliReport B a (cliReport B a w).2).2.files = (cliReport B a w).2.files := by
  obtain ⟨e, t, o, h⟩ := effect B a hg (w.files a.infile)
  rw [h w rfl, h _ (after_files hi t o w)]
  refine ⟨rfl, ?_⟩
  funext n
  unfold after
  dsimp only
  split <;> rfl

/-- Two commands that do not touch each other's files end the same way, and leave the same files, whichever is run first. -/
theorem either_order (B : Libraries) (a b : CliArgs) (ga : a.graph = false) (gb : b.graph = false) (h : Independent a b) (w : World) :
    let ab := runAll B [a, b] w
    let ba := runAll B [b, a] w
    ba.1 = ab.1.reverse ∧ ba.2.files = ab.2.files := by
  obtain ⟨e, t, o, ha⟩ := effect B a ga (w.files a.infile)
  obtain ⟨e', t', o', hb⟩ := effect B b gb (w.files b.infile)
  have ab : runAll B [a, b] w = ([e, e'], after b t' o' (after a t o w)) := by
    simp only [runAll, ha w rfl, hb _ (after_files h.readsFirst t o w)]
  have ba : runAll B [b, a] w = ([e', e], after a t o (after b t' o' w)) := by
    simp only [runAll, hb w rfl, ha _ (after_files h.readsSecond t' o' w)]
  dsimp only
  rw [ab, ba]
  refine ⟨rfl, ?_⟩
  funext n
  unfold after
  dsimp only
  by_cases h1 : a.outfile = some n
  · have h2 : b.outfile ≠ some n := by
      intro e
      rcases h.outputs with h | h
      · rw [h] at h1; cases h1
      · exact h (h1.trans e.symm)
    simp [h1, h2]
  · simp [h1]

/-! ## Concrete cases -/

private def world : World := { files := fun n => if n = s%"a.yaml" then some s%"good" else none }
private def first : CliArgs := { infile := s%"a.yaml", outfile := some s%"b.spdx" }
private def second : CliArgs := { infile := s%"b.spdx" }
private def other : CliArgs := { infile := s%"a.yaml", outfile := some s%"c.spdx" }

/-- A command writes a file … -/
private theorem writes : (cliReport C72.libs first world).1 = .success ∧ ((cliReport C72.libs first world).2.files s%"b.spdx").isSome := by
  refine ⟨by decide +kernel, by decide +kernel⟩

/-- … so that the order makes a difference to a command that reads it. -/
theorem order_matters : ∃ (B : Libraries) (a b : CliArgs) (w : World), a.graph = false ∧ b.graph = false ∧ b.outfile = none ∧
    (runAll B [b, a] w).1 ≠ (runAll B [a, b] w).1.reverse :=
  ⟨C72.libs, first, second, world, rfl, rfl, rfl, by decide +kernel⟩

/-- Conversions to different files can be run in either order. -/
example (B : Libraries) (w : World) : (runAll B [other, first] w).2.files = (runAll B [first, other] w).2.files :=
  (either_order B first other rfl rfl ⟨.inr (by decide), by decide, by decide⟩ w).2

/-- Both write something. -/
example : (runAll C72.libs [first, other] world).1 = [.success, .success] := by decide +kernel

end Spdx.C93
