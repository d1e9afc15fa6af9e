import Verif.Py.Exacts
import Verif.Spec.TvLayout
import Verif.Lemmas.Dedup
/- The layout of what the tag-value writer writes. -/
namespace Spdx
open Spec

/-! ## Dictionaries of lists -/

/-- `for k, v in l: d.setdefault(k, []).append(v)` -/
def pushAll {κ ν : Type} [DecidableEq κ] (l : List (κ × ν)) (d : Dict κ (List ν)) : Dict κ (List ν) := l.foldl (fun d p => d.push p.1 p.2) d

theorem pushAll_get {κ ν : Type} [DecidableEq κ] (l : List (κ × ν)) (d : Dict κ (List ν)) (k : κ) :
    ((pushAll l d).get? k).getD [] = (d.get? k).getD [] ++ (l.filter (·.1 = k)).map (·.2) := by
  induction l generalizing d with
  | nil => simp [pushAll]
  | cons p l ih =>
    have : pushAll (p :: l) d = pushAll l (d.push p.1 p.2) := rfl
    rw [this, ih, Dict.get?_push, List.filter_cons]
    by_cases h : p.1 = k
    · subst h; simp
    · simp [h]

theorem nodup_keys_pushAll {κ ν : Type} [DecidableEq κ] (l : List (κ × ν)) (d : Dict κ (List ν)) (h : d.keys.Nodup) : (pushAll l d).keys.Nodup := by
  induction l generalizing d with
  | nil => exact h
  | cons p l ih => exact ih _ (Dict.nodup_keys_set _ _ _ h)

theorem mem_pushAll {κ ν : Type} [DecidableEq κ] (l : List (κ × ν)) (v : ν) : v ∈ (pushAll l []).vals.flatten ↔ v ∈ l.map (·.2) := by
  have hn := nodup_keys_pushAll l ([] : Dict κ (List ν)) (by simp [Dict.keys])
  have hg := fun k => pushAll_get l ([] : Dict κ (List ν)) k
  constructor
  · intro h
    obtain ⟨x, hx, hv⟩ := List.mem_flatten.1 h
    obtain ⟨⟨k, y⟩, hk, rfl⟩ := List.mem_map.1 hx
    have := hg k
    rw [Dict.get?_of_mem _ hn k y hk] at this
    simp only [Option.getD_some, Dict.get?, Option.getD_none, List.nil_append] at this
    rw [this] at hv
    obtain ⟨p, hp, rfl⟩ := List.mem_map.1 hv
    exact List.mem_map.2 ⟨p, (List.mem_filter.1 hp).1, rfl⟩
  · intro h
    obtain ⟨p, hp, rfl⟩ := List.mem_map.1 h
    have := hg p.1
    have hm : p.2 ∈ ((pushAll l ([] : Dict κ (List ν))).get? p.1).getD [] := by
      rw [this]
      exact List.mem_append_right _ (List.mem_map.2 ⟨p, List.mem_filter.2 ⟨hp, by simp⟩, rfl⟩)
    cases hgt : (pushAll l ([] : Dict κ (List ν))).get? p.1 with
    | none => rw [hgt] at hm; simp at hm
    | some y =>
      rw [hgt] at hm
      exact List.mem_flatten.2 ⟨y, List.mem_map.2 ⟨_, Dict.get?_mem _ _ _ hgt, rfl⟩, hm⟩

theorem flatMap_congr' {α β : Type} {f g : α → List β} {l : List α} (h : ∀ x ∈ l, f x = g x) : l.flatMap f = l.flatMap g := by
  induction l with
  | nil => rfl
  | cons x l ih => rw [List.flatMap_cons, List.flatMap_cons, h x List.mem_cons_self, ih fun y hy => h y (List.mem_cons_of_mem _ hy)]

/-- Grouping by keys keeps everything. -/
theorem perm_grouped {α κ : Type} [DecidableEq κ] (f : α → κ) (ks : List κ) (hn : ks.Nodup) (l : List α) (h : ∀ x ∈ l, f x ∈ ks) :
    (ks.flatMap fun k => l.filter (f · = k)).Perm l := by
  induction ks generalizing l with
  | nil =>
    cases l with
    | nil => exact .nil
    | cons x l => exact absurd (h x List.mem_cons_self) (by simp)
  | cons k ks ih =>
    rw [List.nodup_cons] at hn
    rw [List.flatMap_cons]
    refine List.Perm.trans (.append_left _ ?_) (List.filter_append_perm (fun x => decide (f x = k)) l)
    have := ih hn.2 (l.filter fun x => !decide (f x = k)) (by
      intro x hx
      obtain ⟨h1, h2⟩ := List.mem_filter.1 hx
      rcases List.mem_cons.1 (h x h1) with e | e
      · simp [e] at h2
      · exact e)
    refine List.Perm.trans (List.Perm.of_eq ?_) this
    refine flatMap_congr' fun k' hk' => ?_
    rw [List.filter_filter]
    refine List.filter_congr fun x _ => ?_
    by_cases e : f x = k'
    · have : ¬ k' = k := fun e' => hn.1 (e' ▸ hk')
      simp [e, this]
    · simp [e]

/-! ## The packages -/

/-- The files that are written after a package, those that were already written, and the ids of the files written so far. -/
def place : List Str → List File → List File × List File × List Str
  | seen, [] => ([], [], seen)
  | seen, f :: fs =>
    if f.spdxId ∈ seen then ((place seen fs).1, f :: (place seen fs).2.1, (place seen fs).2.2)
    else (f :: (place (seen ++ [f.spdxId]) fs).1, (place (seen ++ [f.spdxId]) fs).2)

theorem place_pos {seen : List Str} {f : File} {fs : List File} (h : f.spdxId ∈ seen) :
    place seen (f :: fs) = ((place seen fs).1, f :: (place seen fs).2.1, (place seen fs).2.2) := if_pos h
theorem place_neg {seen : List Str} {f : File} {fs : List File} (h : f.spdxId ∉ seen) :
    place seen (f :: fs) = (f :: (place (seen ++ [f.spdxId]) fs).1, (place (seen ++ [f.spdxId]) fs).2) := if_neg h

/-- The files with their snippets. -/
def filed (sn : Dict Str (List Snippet)) (f : File) : TvFile := ⟨f, (sn.get? f.spdxId).getD []⟩

theorem writeTvFile_filed (L : LicText) (sn : Dict Str (List Snippet)) (f : File) : writeTvFile L (filed sn f) = writeFileWithSnippets L sn f := rfl

theorem foldl_packagedFileStep (L : LicText) (sn : Dict Str (List Snippet)) (pid : Str) (fs : List File) (s : PackageLoop) :
    fs.foldl (packagedFileStep L sn pid) s =
      { seen := (place s.seen fs).2.2
        relationships := s.relationships ++ (place s.seen fs).2.1.map fun f => contains pid f.spdxId
        steps := s.steps ++ (place s.seen fs).1.flatMap (writeFileWithSnippets L sn) } := by
  induction fs generalizing s with
  | nil => simp [place]
  | cons f fs ih =>
    rw [List.foldl_cons, ih]
    unfold packagedFileStep
    by_cases h : f.spdxId ∈ s.seen
    · rw [if_pos h, place_pos h]
      simp only [List.map_cons, List.append_assoc, List.singleton_append]; rfl
    · rw [if_neg h, place_neg h]
      simp only [List.flatMap_cons, List.append_assoc]

/-- The packages with the files that follow them; the relationships that have to be written nevertheless; the files written. -/
def layPackages (sn : Dict Str (List Snippet)) (cs : Str → List File) : List Str → List Package → List TvGroup × List Relationship
  | _, [] => ([], [])
  | seen, p :: ps =>
    (⟨p, (place seen (cs p.spdxId)).1.map (filed sn)⟩ :: (layPackages sn cs (place seen (cs p.spdxId)).2.2 ps).1,
     ((place seen (cs p.spdxId)).2.1.map fun f => contains p.spdxId f.spdxId) ++ (layPackages sn cs (place seen (cs p.spdxId)).2.2 ps).2)

theorem foldl_packageStep (L : LicText) (sn : Dict Str (List Snippet)) (contained : Dict Str (List File)) (ps : List Package) (s : PackageLoop) :
    (ps.foldl (packageStep L sn contained) s).relationships =
      s.relationships ++ (layPackages sn (fun p => (contained.get? p).getD []) s.seen ps).2 ∧
    (ps.foldl (packageStep L sn contained) s).steps =
      s.steps ++ (layPackages sn (fun p => (contained.get? p).getD []) s.seen ps).1.flatMap (writeGroup L) := by
  induction ps generalizing s with
  | nil => simp [layPackages]
  | cons p ps ih =>
    rw [List.foldl_cons]
    obtain ⟨h1, h2⟩ := ih (packageStep L sn contained s p)
    rw [h1, h2]
    unfold packageStep
    rw [foldl_packagedFileStep]
    constructor
    · simp only [layPackages, List.append_assoc]
    · simp only [layPackages, List.append_assoc, List.flatMap_cons, writeGroup, List.flatMap_map]
      rfl

/-! ### What `place` does -/

theorem place_mem (seen : List Str) (fs : List File) : ∀ f ∈ (place seen fs).1, f ∈ fs := by
  induction fs generalizing seen with
  | nil => simp [place]
  | cons g fs ih =>
    intro f hf
    by_cases h : g.spdxId ∈ seen
    · rw [place_pos h] at hf; exact List.mem_cons_of_mem _ (ih _ f hf)
    · rw [place_neg h] at hf
      rcases List.mem_cons.1 hf with e | hf
      · rw [e]; exact List.mem_cons_self
      · exact List.mem_cons_of_mem _ (ih _ f hf)

theorem place_seen (seen : List Str) (fs : List File) (i : Str) :
    i ∈ (place seen fs).2.2 ↔ i ∈ seen ∨ i ∈ (place seen fs).1.map (·.spdxId) := by
  induction fs generalizing seen with
  | nil => simp [place]
  | cons g fs ih =>
    by_cases hs : g.spdxId ∈ seen
    · rw [place_pos hs]
      exact ih seen
    · rw [place_neg hs]
      simp only [ih, List.mem_append, List.mem_cons, List.not_mem_nil, or_false, List.map_cons, or_assoc]

theorem place_all (seen : List Str) (fs : List File) : ∀ f ∈ fs, f.spdxId ∈ (place seen fs).2.2 := by
  induction fs generalizing seen with
  | nil => simp
  | cons g fs ih =>
    intro f hf
    by_cases hs : g.spdxId ∈ seen
    · rw [place_pos hs]
      rcases List.mem_cons.1 hf with e | hf
      · rw [e]; exact (place_seen ..).2 (.inl hs)
      · exact ih _ f hf
    · rw [place_neg hs]
      rcases List.mem_cons.1 hf with e | hf
      · rw [e]; exact (place_seen ..).2 (.inl (by simp))
      · exact ih _ f hf

theorem place_nodup (seen : List Str) (fs : List File) :
    ((place seen fs).1.map (·.spdxId)).Nodup ∧ ∀ f ∈ (place seen fs).1, f.spdxId ∉ seen := by
  induction fs generalizing seen with
  | nil => simp [place]
  | cons g fs ih =>
    by_cases hs : g.spdxId ∈ seen
    · rw [place_pos hs]
      exact ih seen
    · rw [place_neg hs]
      obtain ⟨h1, h2⟩ := ih (seen ++ [g.spdxId])
      simp only [List.map_cons, List.nodup_cons]
      refine ⟨⟨fun hm => ?_, h1⟩, ?_⟩
      · obtain ⟨f, hf, e⟩ := List.mem_map.1 hm
        exact h2 f hf (by rw [e]; simp)
      · intro f hf
        rcases List.mem_cons.1 hf with e | hf
        · rw [e]; exact hs
        · exact fun hm => h2 f hf (List.mem_append_left _ hm)

theorem place_perm (seen : List Str) (fs : List File) : ((place seen fs).1 ++ (place seen fs).2.1).Perm fs := by
  induction fs generalizing seen with
  | nil => exact .nil
  | cons g fs ih =>
    by_cases hs : g.spdxId ∈ seen
    · rw [place_pos hs]
      exact List.perm_middle.trans (.cons _ (ih seen))
    · rw [place_neg hs]; exact .cons _ (ih _)

/-! ### What `layPackages` does -/

variable (sn : Dict Str (List Snippet)) (cs : Str → List File)

/-- The files written after packages. -/
def groupFiles (gs : List TvGroup) : List File := (gs.flatMap (·.files)).map (·.file)

theorem groupFiles_cons (g : TvGroup) (gs : List TvGroup) : groupFiles (g :: gs) = g.files.map (·.file) ++ groupFiles gs := by
  simp [groupFiles]

theorem filed_file (l : List File) : (l.map (filed sn)).map (·.file) = l := by
  rw [List.map_map]; exact (List.map_congr_left (g := id) fun _ _ => rfl).trans (List.map_id l)

theorem lay_packages (seen : List Str) (ps : List Package) : (layPackages sn cs seen ps).1.map (·.package) = ps := by
  induction ps generalizing seen with
  | nil => rfl
  | cons p ps ih => simp only [layPackages, List.map_cons, ih]

theorem lay_filed (seen : List Str) (ps : List Package) :
    ∀ g ∈ (layPackages sn cs seen ps).1, ∀ f ∈ g.files, f = filed sn f.file ∧ f.file ∈ cs g.package.spdxId := by
  induction ps generalizing seen with
  | nil => simp [layPackages]
  | cons p ps ih =>
    intro g hg f hf
    simp only [layPackages] at hg
    rcases List.mem_cons.1 hg with e | hg
    · subst e
      obtain ⟨f', hf', rfl⟩ := List.mem_map.1 hf
      exact ⟨rfl, place_mem _ _ f' hf'⟩
    · exact ih _ g hg f hf

theorem lay_nodup (seen : List Str) (ps : List Package) :
    ((groupFiles (layPackages sn cs seen ps).1).map (·.spdxId)).Nodup ∧ ∀ f ∈ groupFiles (layPackages sn cs seen ps).1, f.spdxId ∉ seen := by
  induction ps generalizing seen with
  | nil => simp [layPackages, groupFiles]
  | cons p ps ih =>
    simp only [layPackages, groupFiles_cons, filed_file]
    obtain ⟨h1, h2⟩ := ih (place seen (cs p.spdxId)).2.2
    obtain ⟨h3, h4⟩ := place_nodup seen (cs p.spdxId)
    constructor
    · rw [List.map_append, List.nodup_append]
      refine ⟨h3, h1, ?_⟩
      rintro i hi j hj rfl
      obtain ⟨f, hf, e⟩ := List.mem_map.1 hj
      exact h2 f hf ((place_seen ..).2 (.inr (by rw [e]; exact hi)))
    · intro f hf
      rcases List.mem_append.1 hf with hf | hf
      · exact h4 f hf
      · exact fun hs => h2 f hf ((place_seen ..).2 (.inl hs))

theorem lay_all (seen : List Str) (ps : List Package) :
    ∀ p ∈ ps, ∀ f ∈ cs p.spdxId, f.spdxId ∈ seen ∨ f.spdxId ∈ (groupFiles (layPackages sn cs seen ps).1).map (·.spdxId) := by
  induction ps generalizing seen with
  | nil => simp
  | cons p ps ih =>
    intro q hq f hf
    simp only [layPackages, groupFiles_cons, filed_file, List.map_append, List.mem_append]
    rcases List.mem_cons.1 hq with e | hq
    · rw [e] at hf
      rcases (place_seen ..).1 (place_all seen _ f hf) with h | h
      · exact .inl h
      · exact .inr (.inl h)
    · rcases ih _ q hq f hf with h | h
      · rcases (place_seen ..).1 h with h | h
        · exact .inl h
        · exact .inr (.inl h)
      · exact .inr (.inr h)

/-- The relationships implied and those written out again are those said to be. -/
theorem lay_relationships (seen : List Str) (ps : List Package) :
    (((layPackages sn cs seen ps).1.flatMap fun g => g.files.map fun f => contains g.package.spdxId f.file.spdxId) ++
      (layPackages sn cs seen ps).2).Perm (ps.flatMap fun p => (cs p.spdxId).map fun f => contains p.spdxId f.spdxId) := by
  induction ps generalizing seen with
  | nil => exact .nil
  | cons p ps ih =>
    simp only [layPackages, List.flatMap_cons, List.map_map]
    have e : (fun f : TvFile => contains p.spdxId f.file.spdxId) ∘ filed sn = fun f => contains p.spdxId f.spdxId := rfl
    rw [e]
    have h1 := (place_perm seen (cs p.spdxId)).map (fun f => contains p.spdxId f.spdxId)
    rw [List.map_append] at h1
    have h2 := ih (place seen (cs p.spdxId)).2.2
    refine List.Perm.trans ?_ (h1.append h2)
    simp only [List.append_assoc]
    refine .append_left _ ?_
    rw [← List.append_assoc, ← List.append_assoc]
    exact .append_right _ List.perm_append_comm

/-! ## The document -/

/-- The dict of the files. -/
def fileDict (d : Document) : Dict Str File := Dict.update [] (d.files.map fun f => (f.spdxId, f))

/-- The package's id and the file. -/
def pairOf (d : Document) (r : Relationship) : Option (Str × File) := packagedFile (d.packages.map (·.spdxId)) (fileDict d) r

def pairs (d : Document) : List (Str × File) := d.relationships.filterMap (pairOf d)

/-- The relationship is written even though a file's place may say the same. -/
def explicit (d : Document) (r : Relationship) : Bool := (pairOf d r).isNone || r.hasComment

theorem scan_eq (d : Document) : scanRelationships d.relationships d.packages d.files =
    (d.relationships.filter (explicit d), pushAll (pairs d) []) := by
  have : ∀ (rs : List Relationship) (s : List Relationship × Dict Str (List File)),
      rs.foldl (scanStep (d.packages.map (·.spdxId)) (fileDict d)) s =
        (s.1 ++ rs.filter (explicit d), pushAll (rs.filterMap (pairOf d)) s.2) := by
    intro rs
    induction rs with
    | nil => intro s; simp [pushAll]
    | cons r rs ih =>
      intro s
      rw [List.foldl_cons, ih, List.filter_cons, List.filterMap_cons]
      unfold scanStep explicit
      show (_ : List Relationship × Dict Str (List File)) = _
      have e : packagedFile (d.packages.map (·.spdxId)) (fileDict d) r = pairOf d r := rfl
      rw [e]
      cases pairOf d r with
      | none => simp
      | some pf =>
        obtain ⟨p, f⟩ := pf
        by_cases h : r.hasComment = true
        · simp [h, pushAll]
        · simp [h, pushAll]
  have := this d.relationships ([], [])
  rw [List.nil_append] at this
  exact this

/-- Snippets with their file's id. -/
def filedSnippets (d : Document) : List (Str × Snippet) :=
  (d.snippets.filter fun s => s.fileSpdxId ∈ d.files.map (·.spdxId)).map fun s => (s.fileSpdxId, s)

theorem snippetsByFile_eq (d : Document) : snippetsByFile d.snippets d.files = pushAll (filedSnippets d) [] := by
  unfold snippetsByFile filedSnippets
  have : ∀ (ss : List Snippet) (x : Dict Str (List Snippet)),
      ss.foldl (fun d' s => if s.fileSpdxId ∈ d.files.map (·.spdxId) then d'.push s.fileSpdxId s else d') x =
        pushAll ((ss.filter fun s => s.fileSpdxId ∈ d.files.map (·.spdxId)).map fun s => (s.fileSpdxId, s)) x := by
    intro ss
    induction ss with
    | nil => intro x; rfl
    | cons s ss ih =>
      intro x
      rw [List.foldl_cons, ih, List.filter_cons]
      by_cases h : s.fileSpdxId ∈ d.files.map (·.spdxId)
      · rw [if_pos h, if_pos (decide_eq_true h)]; rfl
      · rw [if_neg h, if_neg (by simpa using h)]
  exact this _ _

/-- The files said to be in a package. -/
def containedIn (d : Document) (p : Str) : List File := ((pairs d).filter (·.1 = p)).map (·.2)

theorem containedIn_eq (d : Document) (p : Str) : ((pushAll (pairs d) ([] : Dict Str (List File))).get? p).getD [] = containedIn d p := by
  rw [pushAll_get]; rfl

def laid (d : Document) : List TvGroup × List Relationship := layPackages (pushAll (filedSnippets d) []) (containedIn d) [] d.packages

/-- The layout of a document. -/
def layoutOf (d : Document) : TvLayout where
  snippets := d.snippets.filter fun s => s.spdxId ∉ (filedSnippets d).map (·.2.spdxId)
  files := (d.files.filter fun f => f.spdxId ∉ (pairs d).map (·.2.spdxId)).map (filed (pushAll (filedSnippets d) []))
  groups := (laid d).1
  extracted := d.extractedLicensingInfo
  relationships := d.relationships.filter (explicit d) ++ (laid d).2
  annotations := d.annotations

theorem mem_pushAll_ids {ν : Type} (g : ν → Str) (l : List (Str × ν)) (i : Str) :
    i ∈ (pushAll l []).vals.flatten.map g ↔ i ∈ l.map (g ·.2) := by
  constructor
  · intro h
    obtain ⟨v, hv, rfl⟩ := List.mem_map.1 h
    obtain ⟨p, hp, rfl⟩ := List.mem_map.1 ((mem_pushAll l v).1 hv)
    exact List.mem_map.2 ⟨p, hp, rfl⟩
  · intro h
    obtain ⟨p, hp, rfl⟩ := List.mem_map.1 h
    exact List.mem_map.2 ⟨p.2, (mem_pushAll l _).2 (List.mem_map.2 ⟨p, hp, rfl⟩), rfl⟩

theorem heading_if {α : Type} (l : List α) (h : TvSteps) : writeHeading (!l.isEmpty) h = if l = [] then [] else h := by
  cases l <;> rfl

theorem writeTagValue_layout (L : LicText) (d : Document) : writeTagValue L d = writeLayout L d.creationInfo (layoutOf d) := by
  unfold writeTagValue writeLayout
  simp only [scan_eq, snippetsByFile_eq, heading_if]
  obtain ⟨h1, h2⟩ := foldl_packageStep L (pushAll (filedSnippets d) []) (pushAll (pairs d) []) d.packages
    { seen := [], relationships := d.relationships.filter (explicit d), steps := [] }
  have hc : (fun p => ((pushAll (pairs d) ([] : Dict Str (List File))).get? p).getD []) = containedIn d := funext (containedIn_eq d)
  rw [hc] at h1 h2
  rw [h1, h2, List.nil_append]
  have e1 : (d.snippets.filter fun s => s.spdxId ∉ (pushAll (filedSnippets d) []).vals.flatten.map (·.spdxId)) = (layoutOf d).snippets := by
    refine List.filter_congr fun s _ => ?_
    simp only [mem_pushAll_ids]
  have e2 : (d.files.filter fun f => f.spdxId ∉ (pushAll (pairs d) []).vals.flatten.map (·.spdxId)).flatMap
      (writeFileWithSnippets L (pushAll (filedSnippets d) [])) = (layoutOf d).files.flatMap (writeTvFile L) := by
    unfold layoutOf
    simp only [List.flatMap_map]
    refine congrArg (List.flatMap _) (List.filter_congr fun f _ => ?_)
    simp only [mem_pushAll_ids]
  rw [e1, e2]
  rfl

/-! ### The elements appear once -/

theorem fileDict_get? {d : Document} (h : UniqueIds d) (i : Str) (f : File) : (fileDict d).get? i = some f ↔ f ∈ d.files ∧ f.spdxId = i := by
  have hm : (d.files.map fun f => (f.spdxId, f)).map (·.1) = d.files.map (·.spdxId) := by rw [List.map_map]; rfl
  have e : fileDict d = d.files.map fun f => (f.spdxId, f) := by
    unfold fileDict
    rw [Dict.update_fresh _ _ (by rw [hm]; exact h.files) (by simp [Dict.keys])]
    rfl
  rw [e]
  constructor
  · intro hg
    have := Dict.get?_mem _ _ _ hg
    obtain ⟨g, hg, e⟩ := List.mem_map.1 this
    simp only [Prod.mk.injEq] at e
    rw [← e.2]; exact ⟨hg, e.1⟩
  · rintro ⟨hf, rfl⟩
    exact Dict.get?_of_mem _ (by unfold Dict.keys; rw [hm]; exact h.files) _ _ (List.mem_map.2 ⟨f, hf, rfl⟩)

/-- What the scan of the relationships looks for. -/
theorem pairOf_iff {d : Document} (h : UniqueIds d) (r : Relationship) (p : Str) (f : File) :
    pairOf d r = some (p, f) ↔ f ∈ d.files ∧ Packaged d r p f.spdxId := by
  have hg := fileDict_get? h
  have hsome : ∀ i, ((fileDict d).get? i).isSome = true ↔ ∃ f ∈ d.files, f.spdxId = i := by
    intro i
    rw [Option.isSome_iff_exists]
    exact ⟨fun ⟨f, e⟩ => ⟨f, (hg i f).1 e⟩, fun ⟨f, e⟩ => ⟨f, (hg i f).2 e⟩⟩
  unfold pairOf packagedFile Packaged
  obtain ⟨a, t, b, c⟩ := r
  cases b with
  | val b =>
    simp only [OrSpecial.val.injEq, List.mem_map]
    constructor
    · intro e
      split at e
      · rename_i hc
        obtain ⟨x, hx, e'⟩ := Option.map_eq_some_iff.1 e
        simp only [Prod.mk.injEq] at e'
        obtain ⟨rfl, rfl⟩ := e'
        obtain ⟨h1, h2⟩ := (hg _ _).1 hx
        exact ⟨h1, by simpa using hc.2.1, ⟨x, h1, rfl⟩, .inl ⟨hc.1, rfl, h2.symm⟩⟩
      · split at e
        · rename_i hc
          obtain ⟨x, hx, e'⟩ := Option.map_eq_some_iff.1 e
          simp only [Prod.mk.injEq] at e'
          obtain ⟨rfl, rfl⟩ := e'
          obtain ⟨h1, h2⟩ := (hg _ _).1 hx
          exact ⟨h1, by simpa using hc.2.1, ⟨x, h1, rfl⟩, .inr ⟨hc.1, h2.symm, rfl⟩⟩
        · cases e
    · rintro ⟨hf, hp, _, ⟨rfl, rfl, rfl⟩ | ⟨rfl, rfl, rfl⟩⟩
      · have : (fileDict d).get? f.spdxId = some f := (hg _ _).2 ⟨hf, rfl⟩
        rw [if_pos ⟨rfl, hp, by rw [this]; rfl⟩, this]; rfl
      · have : (fileDict d).get? f.spdxId = some f := (hg _ _).2 ⟨hf, rfl⟩
        rw [if_neg (by simp), if_pos ⟨rfl, hp, by rw [this]; rfl⟩, this]; rfl
  | noAssertion => simp
  | none => simp

theorem mem_pairs {d : Document} (h : UniqueIds d) (p : Str) (f : File) :
    (p, f) ∈ pairs d ↔ f ∈ d.files ∧ ∃ r ∈ d.relationships, Packaged d r p f.spdxId := by
  unfold pairs
  rw [List.mem_filterMap]
  constructor
  · rintro ⟨r, hr, e⟩
    obtain ⟨h1, h2⟩ := (pairOf_iff h r p f).1 e
    exact ⟨h1, r, hr, h2⟩
  · rintro ⟨h1, r, hr, h2⟩
    exact ⟨r, hr, (pairOf_iff h r p f).2 ⟨h1, h2⟩⟩

theorem mem_containedIn {d : Document} (p : Str) (f : File) : f ∈ containedIn d p ↔ (p, f) ∈ pairs d := by
  unfold containedIn
  simp only [List.mem_map, List.mem_filter, decide_eq_true_eq]
  constructor
  · rintro ⟨⟨q, g⟩, ⟨hm, e⟩, rfl⟩
    simp only at e; rw [← e]; exact hm
  · intro hm; exact ⟨(p, f), ⟨hm, rfl⟩, rfl⟩

theorem eq_of_id {d : Document} (h : UniqueIds d) {f g : File} (hf : f ∈ d.files) (hg : g ∈ d.files) (e : f.spdxId = g.spdxId) : f = g := by
  exact inj_of_nodup h.files hf hg e

theorem groupFiles_sub {d : Document} (h : UniqueIds d) : ∀ f ∈ groupFiles (laid d).1, f ∈ d.files ∧ ∃ p, (p, f) ∈ pairs d := by
  intro f hf
  obtain ⟨t, ht, rfl⟩ := List.mem_map.1 hf
  obtain ⟨g, hg, ht⟩ := List.mem_flatMap.1 ht
  have := (mem_containedIn _ _).1 (lay_filed _ _ _ _ g hg t ht).2
  exact ⟨((mem_pairs h _ _).1 this).1, _, this⟩

theorem mem_groupFiles {d : Document} (h : UniqueIds d) (f : File) : f ∈ groupFiles (laid d).1 ↔ f ∈ d.files ∧ f.spdxId ∈ (pairs d).map (·.2.spdxId) := by
  constructor
  · intro hf
    obtain ⟨h1, p, h2⟩ := groupFiles_sub h f hf
    exact ⟨h1, List.mem_map.2 ⟨_, h2, rfl⟩⟩
  · rintro ⟨hf, hm⟩
    obtain ⟨⟨p, g⟩, hp, e⟩ := List.mem_map.1 hm
    have hpr := (mem_pairs h p g).1 hp
    have : f = g := eq_of_id h hf hpr.1 e.symm
    subst this
    obtain ⟨_, r, hr, hk⟩ := hpr
    obtain ⟨q, hq, rfl⟩ := List.mem_map.1 hk.1
    rcases lay_all (pushAll (filedSnippets d) []) (containedIn d) [] d.packages q hq f ((mem_containedIn _ _).2 hp) with h1 | h1
    · cases h1
    · obtain ⟨x, hx, e⟩ := List.mem_map.1 h1
      have := eq_of_id h (groupFiles_sub h x hx).1 hf e
      rw [← this]; exact hx

theorem nodup_of_map {α β : Type} {f : α → β} {l : List α} (h : (l.map f).Nodup) : l.Nodup := by
  induction l with
  | nil => simp
  | cons x l ih =>
    rw [List.map_cons, List.nodup_cons] at h
    rw [List.nodup_cons]
    exact ⟨fun hm => h.1 (List.mem_map.2 ⟨x, hm, rfl⟩), ih h.2⟩

theorem layout_files {d : Document} (h : UniqueIds d) : (layoutOf d).allFiles.Perm d.files := by
  have e : (layoutOf d).allFiles = (d.files.filter fun f => f.spdxId ∉ (pairs d).map (·.2.spdxId)) ++ groupFiles (laid d).1 := by
    unfold TvLayout.allFiles TvLayout.tvFiles layoutOf groupFiles
    simp only [List.map_append, filed_file]
  rw [e]
  have hn : d.files.Nodup := nodup_of_map h.files
  refine (List.perm_ext_iff_of_nodup ?_ hn).2 fun f => ?_
  · rw [List.nodup_append]
    refine ⟨hn.filter _, nodup_of_map (lay_nodup _ _ _ _).1, ?_⟩
    rintro f hf g hg rfl
    have := ((mem_groupFiles h f).1 hg).2
    simp [List.mem_filter] at hf
    obtain ⟨⟨p, x⟩, hx, ex⟩ := List.mem_map.1 this
    exact hf.2 p x hx ex
  · rw [List.mem_append, List.mem_filter, mem_groupFiles h]
    by_cases hm : f.spdxId ∈ (pairs d).map (·.2.spdxId)
    · simp only [hm, not_true_eq_false, decide_false, Bool.false_eq_true, and_false, and_true, false_or]
    · simp only [hm, not_false_eq_true, decide_true, and_true, and_false, or_false]

theorem layout_filed {d : Document} : ∀ f ∈ (layoutOf d).tvFiles, f = filed (pushAll (filedSnippets d) []) f.file := by
  intro f hf
  rcases List.mem_append.1 hf with hf | hf
  · obtain ⟨g, _, rfl⟩ := List.mem_map.1 hf; rfl
  · obtain ⟨g, hg, hf⟩ := List.mem_flatMap.1 hf
    exact (lay_filed _ _ _ _ g hg f hf).1

theorem filed_snippets (d : Document) (f : File) : (filed (pushAll (filedSnippets d) []) f).snippets =
    d.snippets.filter fun s => decide (s.fileSpdxId ∈ d.files.map (·.spdxId)) && decide (s.fileSpdxId = f.spdxId) := by
  show ((pushAll (filedSnippets d) ([] : Dict Str (List Snippet))).get? f.spdxId).getD [] = _
  rw [pushAll_get]
  unfold filedSnippets
  rw [List.filter_map, List.map_map, List.filter_filter]
  have : (fun p : Str × Snippet => p.2) ∘ (fun s : Snippet => (s.fileSpdxId, s)) = id := rfl
  rw [this, List.map_id]
  show _ ++ _ = _
  simp only [Dict.get?, Option.getD_none, List.nil_append, Function.comp_def]
  refine List.filter_congr fun s _ => Bool.and_comm ..

theorem layout_snippets {d : Document} (h : UniqueIds d) : (layoutOf d).allSnippets.Perm d.snippets := by
  unfold TvLayout.allSnippets
  -- the snippets of a file
  have e1 : (layoutOf d).tvFiles.flatMap (·.snippets) = (layoutOf d).allFiles.flatMap fun f => (filed (pushAll (filedSnippets d) []) f).snippets := by
    unfold TvLayout.allFiles
    rw [List.flatMap_map]
    refine flatMap_congr' fun f hf => ?_
    have := layout_filed f hf
    exact congrArg TvFile.snippets this
  rw [e1]
  have e2 : ∀ f, (filed (pushAll (filedSnippets d) []) f).snippets =
      (d.snippets.filter fun s => s.fileSpdxId ∈ d.files.map (·.spdxId)).filter fun s => s.fileSpdxId = f.spdxId := by
    intro f
    rw [filed_snippets, List.filter_filter]
    exact List.filter_congr fun s _ => Bool.and_comm ..
  have e3 : ((layoutOf d).allFiles.flatMap fun f => (filed (pushAll (filedSnippets d) []) f).snippets).Perm
      (d.snippets.filter fun s => s.fileSpdxId ∈ d.files.map (·.spdxId)) := by
    have hids : ((layoutOf d).allFiles.map (·.spdxId)).Perm (d.files.map (·.spdxId)) := (layout_files h).map _
    have := perm_grouped (fun s : Snippet => s.fileSpdxId) ((layoutOf d).allFiles.map (·.spdxId)) (hids.nodup_iff.2 h.files)
      (d.snippets.filter fun s => s.fileSpdxId ∈ d.files.map (·.spdxId)) (by
        intro s hs
        have := (List.mem_filter.1 hs).2
        exact (hids.mem_iff).2 (by simpa using this))
    rw [List.flatMap_map] at this
    simp only [e2]
    exact this
  have e4 : (layoutOf d).snippets = d.snippets.filter fun s => !decide (s.fileSpdxId ∈ d.files.map (·.spdxId)) := by
    unfold layoutOf
    simp only
    refine List.filter_congr fun s hs => ?_
    have : s.spdxId ∈ (filedSnippets d).map (·.2.spdxId) ↔ s.fileSpdxId ∈ d.files.map (·.spdxId) := by
      unfold filedSnippets
      rw [List.map_map]
      constructor
      · intro hm
        obtain ⟨t, ht, e⟩ := List.mem_map.1 hm
        obtain ⟨ht1, ht2⟩ := List.mem_filter.1 ht
        have := inj_of_nodup h.snippets ht1 hs e
        rw [← this]; simpa using ht2
      · intro hm
        exact List.mem_map.2 ⟨s, List.mem_filter.2 ⟨hs, decide_eq_true hm⟩, rfl⟩
    simp only [this, decide_not]
  rw [e4]
  exact List.perm_append_comm.trans ((e3.append_right _).trans (List.filter_append_perm _ _))

/-- The relationships implied, and those written out because a file already stands elsewhere, are those found in the document. -/
theorem layout_implied {d : Document} (h : UniqueIds d) :
    ((layoutOf d).implied ++ (laid d).2).Perm ((pairs d).map fun x => contains x.1 x.2.spdxId) := by
  refine (lay_relationships (pushAll (filedSnippets d) []) (containedIn d) [] d.packages).trans ?_
  have := perm_grouped (fun x : Str × File => x.1) (d.packages.map (·.spdxId)) h.packages (pairs d) (by
    rintro ⟨p, f⟩ hx
    obtain ⟨_, r, _, hk⟩ := (mem_pairs h p f).1 hx
    exact hk.1)
  refine List.Perm.trans (List.Perm.of_eq ?_) (this.map fun x => contains x.1 x.2.spdxId)
  rw [List.flatMap_map, List.map_flatMap]
  refine flatMap_congr' fun p _ => ?_
  unfold containedIn
  rw [List.map_map]
  refine List.map_congr_left fun x hx => ?_
  have := (List.mem_filter.1 hx).2
  simp only [decide_eq_true_eq] at this
  rw [this]; rfl

theorem layout_own (d : Document) : ∀ f ∈ (layoutOf d).tvFiles, ∀ s ∈ f.snippets, s.fileSpdxId = f.file.spdxId := by
  intro f hf s hs
  rw [layout_filed f hf, filed_snippets] at hs
  have := (List.mem_filter.1 hs).2
  simp only [Bool.and_eq_true, decide_eq_true_eq] at this
  exact this.2

end Spdx
