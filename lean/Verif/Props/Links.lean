/-
C116: what virtual files show when they are read later.
-/
import Verif.Spec.Links
import Verif.Lemmas.NaturalCxi
import Verif.Props.WriteSucceeds

namespace KD

open Spec

variable {V W : Type}

/-! ### References in place of values -/

theorem get?_mapKV {K A B : Type _} [DecidableEq K] (d : Dict K A) (g : K → A → B) (k : K) :
    Dict.get? (d.map (fun x => (x.1, g x.1 x.2))) k = (Dict.get? d k).map (g k) := by
  induction d with
  | nil => rfl
  | cons x d ih =>
    simp only [List.map_cons]
    rw [Dict.get?_cons, Dict.get?_cons, ih]
    split
    · rename_i h; subst h; rfl
    · rfl

theorem refs_dataset (f : FileAccess V) (sec s k : Str) :
    f.refs.dataset sec s k = (f.dataset sec s k).map
      (Dataset.refs f.filename (h5path (ch! "/" ++ sec ++ ch! "/" ++ s ++ ch! "/" ++ replaceCh '.' '/' k))) := by
  unfold FileAccess.dataset FileAccess.refs
  simp only [get?_mapKV f.file.datasets (fun p ds => ds.refs f.filename p)]
  generalize Dict.get? f.file.datasets _ = o
  cases o <;> rfl

theorem refs_getIndex (f : FileAccess V) (s k : Str) : f.refs.getIndex s k = f.getIndex s k := rfl

theorem refs_getKeys (f : FileAccess V) (s : Str) : f.refs.getKeys s = f.getKeys s := by
  have h : ∀ p, visitDatasets f.refs.file p = visitDatasets f.file p := by
    intro p
    unfold visitDatasets FileAccess.refs
    simp only [List.filterMap_map]
    rfl
  unfold FileAccess.getKeys FileAccess.readKeys
  rw [h, h]
  rfl

theorem refs_controlSources (c : DC V) : c.refs.controlSources = c.controlSources := by
  unfold DC.controlSources DC.refs
  simp only [List.flatMap_map]
  rfl

theorem refs_instrumentSources (c : DC V) : c.refs.instrumentSources = c.instrumentSources := by
  unfold DC.instrumentSources DC.refs
  simp only [List.flatMap_map]
  rfl

theorem refs_allSources (c : DC V) : c.refs.allSources = c.allSources := by
  unfold DC.allSources
  rw [refs_controlSources, refs_instrumentSources]

theorem refs_keysForSource (c : DC V) (s : Str) : c.refs.keysForSource s = c.keysForSource s := by
  have hs : c.refs.sourceIndex s = (c.sourceIndex s).map FileAccess.refs := by
    unfold DC.sourceIndex DC.refs
    simp only [List.filter_map]
    rfl
  unfold DC.keysForSource
  rw [hs]
  have h : c.refs.selection = c.selection := rfl
  rw [h]
  cases c.selection.get? s with
  | none => rfl
  | some o =>
    cases o with
    | some ks => rfl
    | none =>
      cases c.sourceIndex s with
      | nil => rfl
      | cons f fs => exact refs_getKeys f s

theorem refs_hasField (c : DC V) (b : Bool) (s k : Str) : HasField c.refs b s k ↔ HasField c b s k := by
  unfold HasField
  rw [refs_controlSources, refs_instrumentSources, refs_keysForSource]

theorem refs_mem {c : DC V} {g : FileAccess Ref} : g ∈ c.refs.files ↔ ∃ f ∈ c.files, f.refs = g := by
  simp [DC.refs]

theorem refs_validField {f : FileAccess V} {b : Bool} {s k : Str} (h : ValidField f b s k) : ValidField f.refs b s k := by
  obtain ⟨h1, h2, h3, firsts, counts, ds, h4, h5, h6, h7, h8, h9⟩ := h
  refine ⟨h1, h2, h3, firsts, counts, ds.refs f.filename (fieldPath b s k), h4, ?_, h6, h7, h8, ?_⟩
  · rw [refs_dataset, h5]; rfl
  · simpa [Dataset.refs] using h9

theorem refs_indexedField {f : FileAccess V} {b : Bool} {s k : Str} (h : IndexedField f b s k) : IndexedField f.refs b s k := by
  obtain ⟨h1, h2, firsts, counts, ds, h4, h5, h6, h7, h9⟩ := h
  refine ⟨h1, h2, firsts, counts, ds.refs f.filename (fieldPath b s k), h4, ?_, h6, h7, ?_⟩
  · rw [refs_dataset, h5]; rfl
  · simpa [Dataset.refs] using h9

/-! ### Entries -/

theorem slice_map (g : V → W) (l : List V) (a n : Nat) : slice (l.map g) a n = (slice l a n).map g := by
  simp [slice, List.map_drop, List.map_take]

theorem indexEntries_map (g : V → W) (T F C : List Nat) (rows : List V) (t : Nat) :
    indexEntries T F C (rows.map g) t = (indexEntries T F C rows t).map g := by
  unfold indexEntries
  simp only [slice_map, List.map_flatMap]

theorem mapRows_fileEntries (g : V → W) (f : FileAccess V) (b : Bool) (s k : Str) (t : Nat) :
    fileEntries (f.mapRows g) b s k t = (fileEntries f b s k t).map g := by
  unfold fileEntries
  rw [getIndex_map, dataset_map]
  cases f.getIndex s (groupName b k) with
  | error e => rfl
  | ok ix =>
    cases f.dataset (sectionName b) s k with
    | error e => rfl
    | ok ds => exact indexEntries_map g _ _ _ _ _

theorem refs_fileEntries (g : FileAccess V) (b : Bool) (s k : Str) (t : Nat) :
    fileEntries g.refs b s k t = (entryPositions g b s k t).map (fun i => ⟨g.filename, fieldPath b s k, i⟩) := by
  unfold fileEntries entryPositions
  rw [refs_getIndex, refs_dataset]
  cases g.getIndex s (groupName b k) with
  | error e => rfl
  | ok ix =>
    cases g.dataset (sectionName b) s k with
    | error e => rfl
    | ok ds => exact indexEntries_map _ _ _ _ _ _

theorem range_lookup (l : List V) : (List.range l.length).map (fun i => l[i]?) = l.map some := by
  apply List.ext_getElem
  · simp
  · intro i h1 h2
    simp at h1
    simp [List.getElem?_eq_getElem h1]

/-- The entries of a train are those at its positions. -/
theorem positions_values {g : FileAccess V} {b : Bool} {s k : Str} (t : Nat) {ds : Dataset V}
    (hd : g.dataset (sectionName b) s k = .ok ds) :
    (entryPositions g b s k t).map (fun i => ds.rows[i]?) = (fileEntries g b s k t).map some := by
  unfold fileEntries entryPositions
  rw [hd]
  cases g.getIndex s (groupName b k) with
  | error e => rfl
  | ok ix =>
    dsimp only
    rw [← indexEntries_map, ← indexEntries_map, range_lookup]

theorem positions_length (g : FileAccess V) (b : Bool) (s k : Str) (t : Nat) :
    (entryPositions g b s k t).length = (fileEntries g b s k t).length := by
  cases hd : g.dataset (sectionName b) s k with
  | error e =>
    unfold fileEntries entryPositions
    rw [hd]
    cases g.getIndex s (groupName b k) <;> rfl
  | ok ds => simpa using congrArg List.length (positions_values t hd)

theorem refs_someEntries (g : FileAccess V) (b : Bool) (s k : Str) (t : Nat) :
    fileEntries g.refs b s k t ≠ [] ↔ fileEntries g b s k t ≠ [] := by
  rw [refs_fileEntries, ← List.length_pos_iff, List.length_map, positions_length, List.length_pos_iff]

theorem refs_hasData (c : DC V) (b : Bool) (s k : Str) : HasData c.refs b s k ↔ HasData c b s k := by
  have h : ∀ g : FileAccess V, ∀ t, fileEntries g.refs b s k t ≠ [] ↔ fileEntries g b s k t ≠ [] :=
    fun g t => refs_someEntries g b s k t
  constructor
  · rintro ⟨t, ht, g, hg, hh, he⟩
    obtain ⟨f, hf, rfl⟩ := refs_mem.1 hg
    exact ⟨t, ht, f, hf, hh, (h f t).1 he⟩
  · rintro ⟨t, ht, f, hf, hh, he⟩
    exact ⟨t, ht, f.refs, refs_mem.2 ⟨f, hf, rfl⟩, hh, (h f t).2 he⟩

theorem refs_mismatch {c : DC V} {b : Bool} {s k : Str} (h : Mismatch c.refs b s k) : Mismatch c b s k := by
  obtain ⟨f, hf, g, hg, h1, h2, d, e, h3, h4, h5⟩ := h
  obtain ⟨f, hf0, rfl⟩ := refs_mem.1 hf
  obtain ⟨g, hg0, rfl⟩ := refs_mem.1 hg
  rw [refs_dataset] at h3 h4
  cases hd : f.dataset (sectionName b) s k with
  | error x => rw [hd] at h3; simp [Except.map] at h3
  | ok d' =>
    cases he : g.dataset (sectionName b) s k with
    | error x => rw [he] at h4; simp [Except.map] at h4
    | ok e' =>
      rw [hd] at h3
      rw [he] at h4
      obtain rfl := Except.ok.inj h3
      obtain rfl := Except.ok.inj h4
      exact ⟨f, hf0, g, hg0, h1, h2, d', e', hd, he, h5⟩

theorem refs_writable {c : DC V} (h : Writable c) : Writable c.refs where
  noConflict := by
    have := h.noConflict
    unfold NoConflict at *
    exact List.pairwise_map.2 (this.imp fun hc => hc)
  trains := h.trains
  nonzero := h.nonzero
  named := by
    obtain ⟨h1, h2, h3, h4⟩ := h.named
    refine ⟨?_, ?_, ?_, ?_⟩
    · rw [refs_controlSources]; exact h1
    · rw [refs_instrumentSources]; exact h2
    · intro b s k hF; exact h3 b s k ((refs_hasField c b s k).1 hF)
    · intro b s k s' k' hF hF'
      exact h4 b s k s' k' ((refs_hasField c b s k).1 hF) ((refs_hasField c b s' k').1 hF')
  valid := by
    intro b s k hF g hg hh
    obtain ⟨f, hf, rfl⟩ := refs_mem.1 hg
    obtain ⟨h1, h2, h3, h4⟩ := h.valid b s k ((refs_hasField c b s k).1 hF) f hf hh
    exact ⟨h1, h2, refs_indexedField h3, h4⟩
  inOrder := by
    intro b s k hF f hf g hg hhf hhg hil
    obtain ⟨f, hf0, rfl⟩ := refs_mem.1 hf
    obtain ⟨g, hg0, rfl⟩ := refs_mem.1 hg
    obtain ⟨u, v, h1, h2, h3, h4⟩ := hil
    refine h.inOrder b s k ((refs_hasField c b s k).1 hF) f hf0 g hg0 hhf hhg ⟨u, v, h1, (refs_someEntries f b s k v).1 h2,
      (refs_someEntries g b s k u).1 h3, h4⟩

theorem init_map (g : V → W) (name : Str) (h : H5File V) :
    FileAccess.init name (h.mapRows g) none = (FileAccess.init name h none).map (FileAccess.mapRows g) := by
  unfold FileAccess.init
  dsimp only
  have h1 : (h.mapRows g).trainId = h.trainId := rfl
  have h2 : readDataSources (h.mapRows g) = readDataSources h := rfl
  rw [h1, h2]
  cases need h.trainId with
  | error e => rfl
  | ok t =>
    dsimp only
    cases readDataSources h with
    | error e => rfl
    | ok x => rfl

theorem lookup_now (shows : Str → Option (H5File V)) (file : Str) (p : Path) (i : Nat) :
    Ref.lookup shows ⟨file, p, i⟩ = valueNow shows file p i := by
  unfold Ref.lookup valueNow
  dsimp only
  cases shows file with
  | none => rfl
  | some h =>
    simp only [Option.bind]
    cases h.datasets.get? p <;> rfl

theorem read_now (fill : V) (shows : Str → Option (H5File V)) (file : Str) (p : Path) (i : Nat) :
    Ref.read fill shows ⟨file, p, i⟩ = (valueNow shows file p i).getD fill := by
  unfold Ref.read
  rw [lookup_now]
  cases valueNow shows file p i <;> rfl

/-! ### The properties -/

/-- C116. A file written by `write_virtual`, read at any later time, has the trains, sources, keys and counts of the
collection when it was written, and its entries are those which are now in the source files at the places where the
collection had them, with the fill value where there is nothing. Conditions as for `virtual_read_partial`. -/
theorem virtual_entries_later {c : DC V} {l : H5File Ref} (name : Str) (fill : V) (shows : Str → Option (H5File V))
    (hw : Writable c) (hm : ∀ b s k, HasField c b s k → ¬ Mismatch c b s k) (hl : c.writeLinks = .ok l)
    (hsize : ∀ p ∈ l.datasets, p.2.rows.length < 2 ^ 64) :
    ∃ f, FileAccess.init name (l.seen fill shows) none = .ok f ∧ f.trainIds = c.trainIds ∧
      (∀ s, s ∈ f.controlSources ↔ ∃ k, HasField c false s k ∧ HasData c false s k) ∧
      (∀ s, s ∈ f.instrumentSources ↔ ∃ k, HasField c true s k ∧ HasData c true s k) ∧
      (∀ b s k0, HasField c b s k0 → HasData c b s k0 → ∃ ks, f.getKeys s = .ok ks ∧ ks.Nodup ∧
        ∀ k, k ∈ ks ↔ HasField c b s k ∧ HasData c b s k) ∧
      (∀ b s k, HasField c b s k → HasData c b s k → ∀ t ∈ c.trainIds,
        (∀ g ∈ c.files, Holds g s → t ∈ g.trainIds → fileEntries f b s k t = entriesNow fill shows g b s k t) ∧
        (¬ Covered c s t → fileEntries f b s k t = [])) := by
  obtain ⟨f, h1, h2, h3, h4, h5, h6⟩ := virtual_read_partial name (refs_writable hw)
    (fun b s k hF hM => hm b s k ((refs_hasField c b s k).1 hF) (refs_mismatch hM)) hl hsize
  refine ⟨f.mapRows (Ref.read fill shows), ?_, h2, ?_, ?_, ?_, ?_⟩
  · unfold H5File.seen
    rw [init_map, h1]; rfl
  · intro s
    have := h3 s
    simp only [refs_hasField, refs_hasData] at this
    exact this
  · intro s
    have := h4 s
    simp only [refs_hasField, refs_hasData] at this
    exact this
  · intro b s k0 hF hD
    have := h5 b s k0 ((refs_hasField c b s k0).2 hF) ((refs_hasData c b s k0).2 hD)
    simp only [refs_hasField, refs_hasData] at this
    rw [getKeys_map]
    exact this
  · intro b s k hF hD t ht
    obtain ⟨-, -, -, hE⟩ := h6 b s k ((refs_hasField c b s k).2 hF) ((refs_hasData c b s k).2 hD)
    obtain ⟨hE1, hE2⟩ := hE t ht
    constructor
    · intro g hg hh htg
      rw [mapRows_fileEntries, hE1 g.refs (refs_mem.2 ⟨g, hg, rfl⟩) hh htg, refs_fileEntries, List.map_map]
      unfold entriesNow
      apply List.map_congr_left
      intro i _
      exact read_now fill shows g.filename (fieldPath b s k) i
    · intro hn
      rw [mapRows_fileEntries, hE2 ?_]
      · rfl
      · rintro ⟨g, hg, hh, htg⟩
        obtain ⟨g, hg0, rfl⟩ := refs_mem.1 hg
        exact hn ⟨g, hg0, hh, htg⟩

/-- C116. While a source file is as it was, these are its entries. -/
theorem entries_unchanged {fill : V} {shows : Str → Option (H5File V)} {g : FileAccess V}
    (hs : shows g.filename = some g.file) (b : Bool) (s k : Str) (t : Nat) :
    entriesNow fill shows g b s k t = fileEntries g b s k t := by
  unfold entriesNow
  cases hd : g.dataset (sectionName b) s k with
  | error e =>
    unfold entryPositions fileEntries
    rw [hd]
    cases g.getIndex s (groupName b k) <;> rfl
  | ok ds =>
    have hg : g.file.datasets.get? (fieldPath b s k) = some ds := by
      unfold FileAccess.dataset need at hd
      unfold fieldPath
      split at hd
      · rename_i h; rw [h]; exact congrArg some (Except.ok.inj hd)
      · cases hd
    have hv : ∀ i, valueNow shows g.filename (fieldPath b s k) i = ds.rows[i]? := by
      intro i
      unfold valueNow
      rw [hs]
      simp only [Option.bind, hg]
    simp only [hv]
    have := congrArg (List.map (fun o : Option V => o.getD fill)) (positions_values t hd)
    simpa [List.map_map, Function.comp_def] using this

/-- C116. When a source file is gone, all its entries are the fill value, and there are as many as before. -/
theorem entries_missing {fill : V} {shows : Str → Option (H5File V)} {g : FileAccess V}
    (hs : shows g.filename = none) (b : Bool) (s k : Str) (t : Nat) :
    entriesNow fill shows g b s k t = List.replicate (fileEntries g b s k t).length fill := by
  unfold entriesNow
  have hv : ∀ i, valueNow shows g.filename (fieldPath b s k) i = none := by
    intro i
    unfold valueNow
    rw [hs]; rfl
  simp only [hv, Option.getD]
  rw [List.map_const', positions_length]

/-- References which are read now give back what is there. -/
theorem refs_read {fill : V} {shows : Str → Option (H5File V)} {f : FileAccess V} (hn : OneName f.file)
    (hs : shows f.filename = some f.file) : f.refs.mapRows (Ref.read fill shows) = f := by
  obtain ⟨name, T, C, I, h⟩ := f
  obtain ⟨h1, h2, h3, h4, h5, h6, ds⟩ := h
  unfold FileAccess.refs FileAccess.mapRows H5File.mapRows
  dsimp only at hs hn ⊢
  congr 2
  rw [List.map_map]
  conv_rhs => rw [← List.map_id ds]
  apply List.map_congr_left
  rintro ⟨p, d⟩ hp
  have hg : Dict.get? ds p = some d := (Dict.get?_eq_some_iff hn).2 hp
  simp only [Function.comp, Dataset.refs, Dataset.mapRows, id, List.map_map]
  have : (List.range d.rows.length).map (Ref.read fill shows ∘ fun i => ⟨name, p, i⟩) = d.rows := by
    have h7 : ∀ i, (Ref.read fill shows ∘ fun i => (⟨name, p, i⟩ : Ref)) i = (d.rows[i]?).getD fill := by
      intro i
      simp only [Function.comp, read_now, valueNow, hs, Option.bind, hg]
    rw [List.map_congr_left (fun i _ => h7 i)]
    have := congrArg (List.map (fun o : Option V => o.getD fill)) (range_lookup d.rows)
    simpa [List.map_map, Function.comp_def] using this
  rw [this]

theorem refs_read_all {fill : V} {shows : Str → Option (H5File V)} {c : DC V} (hn : ∀ f ∈ c.files, OneName f.file)
    (hu : Unchanged shows c) : c.refs.mapRows (Ref.read fill shows) = c := by
  obtain ⟨fs, sel, T, x⟩ := c
  unfold DC.refs DC.mapRows
  dsimp only
  congr 1
  rw [List.map_map]
  conv_rhs => rw [← List.map_id fs]
  exact List.map_congr_left (fun f hf => refs_read (hn f hf) (hu f hf))

/-- C116. While the source files are as they were, the file shows what it is in the model of `write_virtual`
(`virtual_read_partial` and others), and `write_virtual` fails with the same exceptions. -/
theorem virtual_file_now {fill : V} {shows : Str → Option (H5File V)} {c : DC V} (hn : ∀ f ∈ c.files, OneName f.file)
    (hu : Unchanged shows c) : c.writeVirtual = c.writeLinks.map (H5File.seen fill shows) := by
  have := writeVirtual_map (Ref.read fill shows) c.refs
  rw [refs_read_all hn hu] at this
  exact this

/-- C116. The same for the file of `get_virtual_dataset`, and the dataset in it. -/
theorem virtual_dataset_now {fill : V} {shows : Str → Option (H5File V)} {c : DC V} (hn : ∀ f ∈ c.files, OneName f.file)
    (hu : Unchanged shows c) (source key : Str) :
    c.getVirtualDataset source key = (c.virtualDatasetLinks source key).map
      (fun x => (x.1.mapRows (Ref.read fill shows), x.2.seen fill shows)) := by
  have := getVirtualDataset_map (Ref.read fill shows) c.refs source key
  rw [refs_read_all hn hu] at this
  exact this

theorem refs_read_congr {fill : V} {shows shows' : Str → Option (H5File V)} {c : DC V}
    (h : ∀ f ∈ c.files, shows f.filename = shows' f.filename) :
    c.refs.mapRows (Ref.read fill shows) = c.refs.mapRows (Ref.read fill shows') := by
  obtain ⟨fs, sel, T, x⟩ := c
  unfold DC.refs DC.mapRows
  dsimp only
  congr 1
  rw [List.map_map, List.map_map]
  apply List.map_congr_left
  intro f hf
  unfold Function.comp FileAccess.mapRows FileAccess.refs H5File.mapRows
  dsimp only
  congr 2
  rw [List.map_map, List.map_map]
  apply List.map_congr_left
  rintro ⟨p, d⟩ -
  simp only [Function.comp, Dataset.refs, Dataset.mapRows, List.map_map]
  congr 2
  apply List.map_congr_left
  intro i _
  simp only [Function.comp, read_now, valueNow, h f hf]

/-- C116. Files which are not among the source files do not matter. -/
theorem virtual_other_files {fill : V} {shows shows' : Str → Option (H5File V)} {c : DC V} {l : H5File Ref}
    (hl : c.writeLinks = .ok l) (h : ∀ f ∈ c.files, shows f.filename = shows' f.filename) :
    l.seen fill shows = l.seen fill shows' := by
  have h1 := writeVirtual_map (Ref.read fill shows) c.refs
  have h2 := writeVirtual_map (Ref.read fill shows') c.refs
  rw [refs_read_congr h, h2] at h1
  unfold DC.writeLinks at hl
  rw [hl] at h1
  exact (Except.ok.inj h1).symm

/-! ### An example -/

/-- What the files of `exWrite` show, with `a` in place of the file "a". -/
def exShows (a : Option (H5File Nat)) (name : Str) : Option (H5File Nat) :=
  if name = ch! "a" then a else (exWrite.files.find? (fun f => f.filename == name)).map (fun f => f.file)

/-- What the virtual file of `exWrite` gives for the instrument source in trains 1 to 3. -/
def exLater (a : Option (H5File Nat)) : R (List Nat × List (List Nat)) :=
  match exWrite.writeLinks with
  | .error e => .error e
  | .ok l => match FileAccess.init (ch! "v") (l.seen 0 (exShows a)) none with
    | .error e => .error e
    | .ok f => .ok (f.trainIds, [1, 2, 3].map (fileEntries f true (ch! "D:o") (ch! "data.y")))

/-- C116. Reading a virtual file is not always reading the data: when a source file has been deleted, its entries are zeros,
with the same trains and counts and without an exception; when it has been replaced by a file with fewer entries, the
others are zeros. -/
theorem virtual_missing_wrong :
    exLater (some (exInst (ch! "a") [1, 2] [0, 2] [2, 1] [10, 11, 12]).file) = .ok ([1, 2, 3], [[10, 11], [12], [20]]) ∧
    exLater none = .ok ([1, 2, 3], [[0, 0], [0], [20]]) ∧
    exLater (some (exInst (ch! "a") [1, 2] [0, 1] [1, 0] [77]).file) = .ok ([1, 2, 3], [[77, 0], [0], [20]]) :=
  ⟨by decide, by decide, by decide⟩

/-- The hypotheses of `virtual_entries_later` hold for `exWrite`; the file "a" has been deleted. -/
example : ∃ l f, exWrite.writeLinks = .ok l ∧ FileAccess.init (ch! "v") (l.seen 0 (exShows none)) none = .ok f ∧
    f.trainIds = [1, 2, 3] ∧ fileEntries f true (ch! "D:o") (ch! "data.y") 1 =
      entriesNow 0 (exShows none) (exInst (ch! "a") [1, 2] [0, 2] [2, 1] [10, 11, 12]) true (ch! "D:o") (ch! "data.y") 1 := by
  cases hl : exWrite.writeLinks with
  | error e => exact absurd hl (by have : (exWrite.writeLinks).toBool = true := by decide
                                   intro h; rw [h] at this; cases this)
  | ok l =>
    have hsz : ∀ p ∈ l.datasets, p.2.rows.length < 2 ^ 64 := by
      have : (exWrite.writeLinks).map (fun l => l.datasets.map (fun p => p.2.rows.length)) = .ok [3, 4] := by decide
      rw [hl] at this
      have : l.datasets.map (fun p => p.2.rows.length) = [3, 4] := Except.ok.inj this
      intro p hp
      have hm : p.2.rows.length ∈ l.datasets.map (fun p => p.2.rows.length) := List.mem_map_of_mem hp
      rw [this] at hm
      simp only [List.mem_cons, List.not_mem_nil, or_false] at hm
      omega
    have h : (exWrite.write).toBool = true := by decide
    have hm : ∀ b s k, HasField exWrite b s k → ¬ Mismatch exWrite b s k ∧ HasData exWrite b s k ∧
        (b = false → ∀ t ∈ exWrite.trainIds, OneEntry exWrite b s k t) := by
      apply (write_succeeds_iff exWrite_writable exWrite_apart exWrite_keys).1
      cases hw : exWrite.write with
      | error e => rw [hw] at h; simp [Except.toBool] at h
      | ok x => exact ⟨x, rfl⟩
    have hF : HasField exWrite true (ch! "D:o") (ch! "data.y") := ⟨by decide, [ch! "data.y"], by decide, by decide⟩
    obtain ⟨f, h1, h2, -, -, -, h6⟩ := virtual_entries_later (ch! "v") 0 (exShows none) exWrite_writable (fun b s k hF => (hm b s k hF).1)
      hl hsz
    refine ⟨l, f, rfl, h1, h2, (h6 true _ _ hF (hm _ _ _ hF).2.1 1 (by decide)).1 _ List.mem_cons_self (Or.inr (by decide)) (by decide)⟩

end KD
