import Verif.Model.DocumentUtils
import Verif.Spec.Example
/-
C20 – Package verification code depends only on the set of file digests.
-/
namespace Spdx.C20
open Spdx

private theorem mapM_ok {α β : Type} (f : α → Except Str β) (l : List α) (r : List β) :
    l.mapM f = .ok r ↔ l.map f = r.map .ok := by
  induction l generalizing r with
  | nil => cases r <;> simp [List.mapM_nil, pure, Except.pure]
  | cons a l ih =>
    rw [List.mapM_cons]
    cases h : f a with
    | error e => simp [bind, Except.bind]; cases r <;> simp [h]
    | ok b =>
      cases h' : l.mapM f with
      | error e =>
        simp only [bind, Except.bind, reduceCtorEq, false_iff]
        intro hm
        cases r with
        | nil => simp at hm
        | cons x r =>
          simp only [List.map_cons, List.cons.injEq] at hm
          rw [(ih r).2 hm.2] at h'; cases h'
      | ok bs =>
        simp only [bind, Except.bind, pure, Except.pure, Except.ok.injEq]
        constructor
        · rintro rfl; simp [h, (ih bs).1 h']
        · intro hm
          cases r with
          | nil => simp at hm
          | cons x r =>
            simp only [List.map_cons, List.cons.injEq, h, Except.ok.injEq] at hm
            have := (ih r).2 hm.2
            rw [h'] at this
            rw [hm.1, Except.ok.inj this]

/-- The SHA1 recorded for a file: its last one. -/
def Recorded (f : File) (v : Str) : Prop :=
  ∃ before after, f.checksums = before ++ { algorithm := .SHA1, value := v } :: after ∧ ∀ c ∈ after, c.algorithm ≠ .SHA1

private theorem recorded_foldl (cs : List Checksum) (acc : Option Str) :
    cs.foldl (fun acc c => if c.algorithm = .SHA1 then some c.value else acc) acc =
      ((cs.reverse.find? (fun c => c.algorithm = .SHA1)).map (·.value)).or acc := by
  induction cs generalizing acc with
  | nil => simp
  | cons c cs ih =>
    rw [List.foldl_cons, ih, List.reverse_cons, List.find?_append]
    cases h : cs.reverse.find? (fun c => decide (c.algorithm = .SHA1)) with
    | some q => simp
    | none => by_cases hp : c.algorithm = .SHA1 <;> simp [hp]

/-- A recorded, nonempty SHA1 is the one used, whatever is on disk. -/
theorem recorded_used (onDisk : Str → Option Str) (f : File) (v : Str) (h : Recorded f v) (hv : v ≠ []) :
    fileHash onDisk f = .ok v := by
  obtain ⟨b, a, he, ha⟩ := h
  have : recordedSha1 f = some v := by
    unfold recordedSha1
    rw [recorded_foldl, he, List.reverse_append, List.reverse_cons, List.find?_append, List.find?_append,
      List.find?_eq_none.2 (by simpa using ha)]
    simp
  unfold fileHash; rw [this]; simp [hv]

/-- Without a recorded SHA1 the digest of the file on disk is used; if there is none, the error names the file. -/
theorem unrecorded (onDisk : Str → Option Str) (f : File) (h : ∀ c ∈ f.checksums, c.algorithm ≠ .SHA1) :
    fileHash onDisk f = match onDisk f.name with | some x => .ok x | none => .error f.name := by
  have : recordedSha1 f = none := by
    unfold recordedSha1
    rw [recorded_foldl, List.find?_eq_none.2 (by simpa using h)]; rfl
  unfold fileHash; rw [this]; rfl

/-- The code is the hash of the concatenation, in ascending order, of the files' digests. -/
theorem value_iff (sha1 : Str → Str) (onDisk : Str → Option Str) (files : List File) (code : PackageVerificationCode) :
    verificationCode sha1 onDisk files = .ok code ↔
      ∃ hashes sorted : List Str, files.map (fileHash onDisk) = hashes.map .ok ∧ sorted.Perm hashes ∧
        sorted.Pairwise (fun a b => a ≤ b) ∧ code = { value := sha1 sorted.flatten, excludedFiles := [] } := by
  unfold verificationCode
  constructor
  · intro h
    cases hm : files.mapM (fileHash onDisk) with
    | error e => rw [hm] at h; cases h
    | ok hs =>
      rw [hm] at h
      cases h
      exact ⟨hs, _, (mapM_ok _ _ _).1 hm, sortStr_perm _, sortStr_sorted _, rfl⟩
  · rintro ⟨hs, so, hm, hp, hso, rfl⟩
    rw [(mapM_ok _ _ _).2 hm]
    simp only [bind, Except.bind, pure, Except.pure, sortStr_unique hs so hp hso]

/-- The code does not depend on the order of the files. -/
theorem order_irrelevant (sha1 : Str → Str) (onDisk : Str → Option Str) (files files' : List File) (h : files.Perm files')
    (code : PackageVerificationCode) :
    verificationCode sha1 onDisk files = .ok code ↔ verificationCode sha1 onDisk files' = .ok code := by
  have one : ∀ files files' : List File, files.Perm files' →
      verificationCode sha1 onDisk files = .ok code → verificationCode sha1 onDisk files' = .ok code := by
    intro files files' h hc
    rw [value_iff] at hc ⊢
    obtain ⟨hs, so, hm, hp, hso, rfl⟩ := hc
    have hperm := h.map (fileHash onDisk)
    rw [hm] at hperm
    obtain ⟨hs', hh, he⟩ : ∃ hs' : List Str, hs'.Perm hs ∧ files'.map (fileHash onDisk) = hs'.map .ok := by
      have hall : ∀ x ∈ files'.map (fileHash onDisk), ∃ y : Str, x = .ok y := by
        intro x hx
        have := hperm.symm.subset hx
        obtain ⟨y, -, rfl⟩ := List.mem_map.1 this
        exact ⟨y, rfl⟩
      have : ∃ hs' : List Str, files'.map (fileHash onDisk) = hs'.map .ok := by
        generalize files'.map (fileHash onDisk) = l at hall
        induction l with
        | nil => exact ⟨[], rfl⟩
        | cons x l ih =>
          obtain ⟨y, rfl⟩ := hall x (by simp)
          obtain ⟨ys, rfl⟩ := ih (fun x hx => hall x (.tail _ hx))
          exact ⟨y :: ys, rfl⟩
      obtain ⟨hs', he⟩ := this
      refine ⟨hs', ?_, he⟩
      rw [he] at hperm
      have hp := hperm.filterMap (fun x => match x with | .ok y => some y | .error _ => none)
      simp only [List.filterMap_map, Function.comp_def] at hp
      simpa using hp.symm
    exact ⟨hs', so, he, hp.trans hh.symm, hso, rfl⟩
  exact ⟨one _ _ h, one _ _ h.symm⟩

/-! Non-vacuity -/
private def f1 : File := { Example.file with checksums := [{ algorithm := .SHA1, value := s%"bb" }] }
private def f2 : File := { Example.file with checksums := [{ algorithm := .MD5, value := s%"0" }, { algorithm := .SHA1, value := s%"aa" }] }
example : verificationCode id (fun _ => none) [f1, f2] = .ok { value := s%"aabb" } := by decide +kernel
example : verificationCode id (fun _ => none) [f2, f1] = .ok { value := s%"aabb" } := by decide +kernel
example : Recorded f2 s%"aa" ∧ s%"aa" ≠ [] := ⟨⟨[_], [], rfl, by simp⟩, by decide⟩
example : verificationCode id (fun _ => none) [f1, { f1 with checksums := [] }] = .error s%"./a.py" := by decide +kernel

end Spdx.C20
