/-
The code which makes virtual files does not look at the values in datasets: it gives the same with other values in place.
-/
import Verif.Model.Links
import Verif.Lemmas.Writer

namespace KD

variable {V W : Type}

/-! ### Lists and loops -/

theorem mapE_natural {α β γ δ : Type _} {f : α → R β} {f' : γ → R δ} {h : α → γ} {k : β → δ} {l : List α}
    (hf : ∀ a ∈ l, f' (h a) = (f a).map k) : mapE f' (l.map h) = (mapE f l).map (List.map k) := by
  induction l with
  | nil => rfl
  | cons a l ih =>
    simp only [List.map_cons, mapE, hf a List.mem_cons_self, ih (fun x hx => hf x (List.mem_cons_of_mem _ hx))]
    cases f a with
    | error e => rfl
    | ok b =>
      simp only [Except.map]
      cases mapE f l <;> rfl

theorem foldE_natural {α γ σ τ : Type _} {f : σ → α → R σ} {f' : τ → γ → R τ} {h : α → γ} {k : σ → τ} {l : List α}
    (hf : ∀ s, ∀ a ∈ l, f' (k s) (h a) = (f s a).map k) : ∀ s, foldE f' (k s) (l.map h) = (foldE f s l).map k := by
  induction l with
  | nil => intro s; rfl
  | cons a l ih =>
    intro s
    simp only [List.map_cons, foldE, hf s a List.mem_cons_self]
    cases f s a with
    | error e => rfl
    | ok b =>
      simp only [Except.map]
      exact ih (fun s x hx => hf s x (List.mem_cons_of_mem _ hx)) b

theorem get?_mapVal {K A B : Type _} [DecidableEq K] (d : Dict K A) (g : A → B) (k : K) :
    Dict.get? (d.map (fun x => (x.1, g x.2))) k = (Dict.get? d k).map g := by
  induction d with
  | nil => rfl
  | cons x d ih =>
    simp only [List.map_cons]
    rw [Dict.get?_cons, Dict.get?_cons, ih]
    split <;> rfl

theorem sortBy_map {α β : Type _} {key : α → Nat} {key' : β → Nat} {h : α → β} (hk : ∀ a, key' (h a) = key a) (l : List α) :
    sortBy key' (l.map h) = (sortBy key l).map h := by
  unfold sortBy
  induction l with
  | nil => rfl
  | cons a l ih =>
    rw [List.map_cons, List.insertionSort_cons, List.insertionSort_cons, ih]
    generalize l.insertionSort (fun a b => key a ≤ key b) = m
    induction m with
    | nil => rfl
    | cons b m ihm =>
      simp only [List.map_cons, List.orderedInsert, hk]
      split
      · rfl
      · simp only [List.map_cons, ihm]

/-! ### Files -/

/-- A file with other values. -/
def FileAccess.mapRows (g : V → W) (f : FileAccess V) : FileAccess W :=
  ⟨f.filename, f.trainIds, f.controlSources, f.instrumentSources, f.file.mapRows g⟩

/-- A collection with other values. -/
def DC.mapRows (g : V → W) (c : DC V) : DC W := ⟨c.files.map (FileAccess.mapRows g), c.selection, c.trainIds, c.ctxCloses⟩

/-- A chunk with other values. -/
def Chunk.mapRows (g : V → W) (ch : Chunk V) : Chunk W :=
  ⟨ch.file.mapRows g, ch.source, ch.key, ch.first, ch.trainIds, ch.counts⟩

theorem dataset_map (g : V → W) (f : FileAccess V) (sec s k : Str) :
    (f.mapRows g).dataset sec s k = (f.dataset sec s k).map (Dataset.mapRows g) := by
  unfold FileAccess.dataset FileAccess.mapRows H5File.mapRows
  simp only [get?_mapVal]
  generalize Dict.get? f.file.datasets _ = o
  cases o <;> rfl

theorem getIndex_map (g : V → W) (f : FileAccess V) (s k : Str) : (f.mapRows g).getIndex s k = f.getIndex s k := rfl

theorem visitDatasets_map (g : V → W) (h : H5File V) (p : Path) : visitDatasets (h.mapRows g) p = visitDatasets h p := by
  unfold visitDatasets H5File.mapRows
  simp only [List.filterMap_map]
  rfl

theorem getKeys_map (g : V → W) (f : FileAccess V) (s : Str) : (f.mapRows g).getKeys s = f.getKeys s := by
  unfold FileAccess.getKeys FileAccess.readKeys
  have h : (f.mapRows g).file = f.file.mapRows g := rfl
  rw [h]
  simp only [visitDatasets_map]
  rfl

theorem controlSources_map (g : V → W) (c : DC V) : (c.mapRows g).controlSources = c.controlSources := by
  unfold DC.controlSources DC.mapRows
  simp only [List.flatMap_map]
  rfl

theorem instrumentSources_map (g : V → W) (c : DC V) : (c.mapRows g).instrumentSources = c.instrumentSources := by
  unfold DC.instrumentSources DC.mapRows
  simp only [List.flatMap_map]
  rfl

theorem allSources_map (g : V → W) (c : DC V) : (c.mapRows g).allSources = c.allSources := by
  unfold DC.allSources
  rw [controlSources_map, instrumentSources_map]

theorem sourceIndex_map (g : V → W) (c : DC V) (s : Str) :
    (c.mapRows g).sourceIndex s = (c.sourceIndex s).map (FileAccess.mapRows g) := by
  unfold DC.sourceIndex DC.mapRows
  simp only [List.filter_map]
  rfl

theorem keysForSource_map (g : V → W) (c : DC V) (s : Str) : (c.mapRows g).keysForSource s = c.keysForSource s := by
  unfold DC.keysForSource
  rw [sourceIndex_map]
  have h : (c.mapRows g).selection = c.selection := rfl
  rw [h]
  cases c.selection.get? s with
  | none => rfl
  | some o =>
    cases o with
    | some ks => rfl
    | none =>
      cases c.sourceIndex s with
      | nil => rfl
      | cons f fs => exact getKeys_map g f s

theorem checkField_map (g : V → W) (c : DC V) (s k : Str) : (c.mapRows g).checkField s k = c.checkField s k := by
  unfold DC.checkField
  rw [allSources_map, keysForSource_map]

theorem chunkDataset_map (g : V → W) (ch : Chunk V) : (ch.mapRows g).dataset = ch.dataset.map (Dataset.mapRows g) := by
  unfold Chunk.dataset Chunk.mapRows
  simp only [dataset_map]
  have h1 : (ch.file.mapRows g).instrumentSources = ch.file.instrumentSources := rfl
  have h2 : (ch.file.mapRows g).controlSources = ch.file.controlSources := rfl
  rw [h1, h2]
  split
  · rfl
  · split
    · rfl
    · rfl

theorem keyGroup_map (g : V → W) (c : DC V) (s k : Str) : (c.mapRows g).keyGroup s k = c.keyGroup s k := by
  unfold DC.keyGroup
  rw [instrumentSources_map]

theorem chunksOfFile_map (g : V → W) (c : DC V) (s k : Str) (f : FileAccess V) :
    (c.mapRows g).chunksOfFile s k (f.mapRows g) = (c.chunksOfFile s k f).map (List.map (Chunk.mapRows g)) := by
  unfold DC.chunksOfFile
  rw [getIndex_map, keyGroup_map]
  cases f.getIndex s (c.keyGroup s k) with
  | error e => rfl
  | ok ix =>
    obtain ⟨firsts, counts⟩ := ix
    have h1 : (f.mapRows g).trainIds = f.trainIds := rfl
    have h2 : (c.mapRows g).trainIds = c.trainIds := rfl
    simp only [h1, h2]
    cases contiguousRegions (f.trainIds.map (fun t => decide (t ∈ c.trainIds))) with
    | error e => rfl
    | ok regions =>
      have h3 : mapE (regionChunk (f.mapRows g) s k firsts counts) regions =
          (mapE (regionChunk f s k firsts counts) regions).map (List.map (Chunk.mapRows g)) := by
        have := mapE_natural (f := regionChunk f s k firsts counts) (f' := regionChunk (f.mapRows g) s k firsts counts)
          (h := id) (k := Chunk.mapRows g) (l := regions) (by
            intro r _
            unfold regionChunk
            simp only [id]
            cases nth firsts r.1 <;> rfl)
        rwa [List.map_id] at this
      simp only [h3]
      cases mapE (regionChunk f s k firsts counts) regions with
      | error e => rfl
      | ok chunks =>
        simp only [Except.map]
        cases chunks with
        | nil => rfl
        | cons a l => rfl

theorem findDataChunks_map (g : V → W) (c : DC V) (s k : Str) :
    (c.mapRows g).findDataChunks s k = (c.findDataChunks s k).map (List.map (Chunk.mapRows g)) := by
  unfold DC.findDataChunks
  rw [sourceIndex_map, mapE_natural (f := c.chunksOfFile s k) (k := List.map (Chunk.mapRows g))
    (fun f _ => chunksOfFile_map g c s k f)]
  cases mapE (c.chunksOfFile s k) (c.sourceIndex s) with
  | error e => rfl
  | ok l => simp [Except.map, List.map_flatten]

/-! ### Virtual datasets -/

theorem virtualPart_map (g : V → W) (shape : List Nat) (ch : Chunk V) :
    virtualPart shape (ch.mapRows g) = (virtualPart shape ch).map (List.map g) := by
  unfold virtualPart
  rw [chunkDataset_map]
  cases ch.dataset with
  | error e => rfl
  | ok ds =>
    have h1 : (ch.mapRows g).first = ch.first := rfl
    have h2 : (ch.mapRows g).counts = ch.counts := rfl
    simp only [Except.map, Dataset.mapRows, h1, h2, sl_map, List.length_map]
    split <;> rfl

/-- A virtual dataset with its train IDs, with other values. -/
def mapVirtual (g : V → W) (x : Dataset V × List Nat) : Dataset W × List Nat := (x.1.mapRows g, x.2)

theorem assembleData_map (g : V → W) (c : DC V) (s k : Str) :
    assembleData (c.mapRows g) s k = (assembleData c s k).map (Option.map (mapVirtual g)) := by
  unfold assembleData
  rw [findDataChunks_map]
  cases c.findDataChunks s k with
  | error e => rfl
  | ok cs =>
    have h1 : (cs.map (Chunk.mapRows g)).filter Chunk.nonEmpty = (cs.filter Chunk.nonEmpty).map (Chunk.mapRows g) := by
      rw [List.filter_map]; rfl
    simp only [Except.map]
    rw [h1, sortBy_map (key := Chunk.sortKey) (key' := Chunk.sortKey) (h := Chunk.mapRows g) (fun _ => rfl)]
    cases sortBy Chunk.sortKey (cs.filter Chunk.nonEmpty) with
    | nil => rfl
    | cons ch0 chs =>
      simp only [List.map_cons, chunkDataset_map]
      cases ch0.dataset with
      | error e => rfl
      | ok ds0 =>
        simp only [Except.map, ← List.map_cons]
        have h2 : (ds0.mapRows g).rowShape = ds0.rowShape := rfl
        rw [h2, mapE_natural (f := virtualPart ds0.rowShape) (k := List.map g) (fun ch _ => virtualPart_map g _ ch)]
        cases mapE (virtualPart ds0.rowShape) (ch0 :: chs) with
        | error e => rfl
        | ok parts =>
          simp only [Except.map, Option.map, mapVirtual, Dataset.mapRows, List.map_flatten, List.flatMap_map]
          rfl

/-! ### Writing -/

/-- The state of a writer with other values. -/
def WState.mapRows (g : V → W) (w : WState V) : WState W :=
  ⟨w.datasets.map (fun x => (x.1, x.2.mapRows g)), w.indexes, w.sources⟩

/-- A writer with the path of a dataset, with other values. -/
def mapPath (g : V → W) (x : WState V × Option Str) : WState W × Option Str := (x.1.mapRows g, x.2)

theorem create_map (g : V → W) (w : WState V) (p : Str) (ds : Dataset V) :
    (w.mapRows g).create p (ds.mapRows g) = (w.create p ds).map (WState.mapRows g) := by
  unfold WState.create WState.mapRows
  simp only [List.any_map, Function.comp_def]
  split
  · rfl
  · simp [Except.map]

theorem makeControlIndex_map (g : V → W) (T : List Nat) (w : WState V) (s : Str) (tids : List Nat) :
    makeControlIndex T (w.mapRows g) s tids = (makeControlIndex T w s tids).map (WState.mapRows g) := by
  unfold makeControlIndex
  have h : (w.mapRows g).indexes = w.indexes := rfl
  rw [h]
  cases w.indexes.get? s with
  | some _ => rfl
  | none =>
    dsimp only
    split <;> rfl

theorem makeInstrumentIndex_map (g : V → W) (T : List Nat) (w : WState V) (s k : Str) (tids : List Nat) :
    makeInstrumentIndex T (w.mapRows g) s k tids = (makeInstrumentIndex T w s k tids).map (WState.mapRows g) := by
  unfold makeInstrumentIndex
  have h : (w.mapRows g).indexes = w.indexes := rfl
  simp only [h]
  cases w.indexes.get? (s ++ ch! "/" ++ (partition '.' k).1) with
  | some _ => rfl
  | none =>
    dsimp only
    cases generateIndex T tids <;> rfl

theorem vAddControl_map (g : V → W) (c : DC V) (w : WState V) (s k : Str) :
    vAddControl (c.mapRows g) (w.mapRows g) s k = (vAddControl c w s k).map (mapPath g) := by
  unfold vAddControl
  rw [assembleData_map]
  cases assembleData c s k with
  | error e => rfl
  | ok o =>
    cases o with
    | none => rfl
    | some x =>
      obtain ⟨ds, tids⟩ := x
      have h : (c.mapRows g).trainIds = c.trainIds := rfl
      simp only [Except.map, Option.map, mapVirtual, create_map, h]
      cases w.create (dataPath ch! "CONTROL" s k) ds with
      | error e => rfl
      | ok w' =>
        simp only [Except.map, makeControlIndex_map]
        cases makeControlIndex c.trainIds w' s tids <;> rfl

theorem vAddInstrument_map (g : V → W) (c : DC V) (w : WState V) (s k : Str) :
    vAddInstrument (c.mapRows g) (w.mapRows g) s k = (vAddInstrument c w s k).map (mapPath g) := by
  unfold vAddInstrument
  rw [assembleData_map]
  cases assembleData c s k with
  | error e => rfl
  | ok o =>
    cases o with
    | none => rfl
    | some x =>
      obtain ⟨ds, tids⟩ := x
      have h : (c.mapRows g).trainIds = c.trainIds := rfl
      simp only [Except.map, Option.map, mapVirtual, create_map, h]
      cases w.create (dataPath ch! "INSTRUMENT" s k) ds with
      | error e => rfl
      | ok w' =>
        simp only [Except.map, makeInstrumentIndex_map]
        cases makeInstrumentIndex c.trainIds w' s k tids <;> rfl

theorem dropPath_map (g : V → W) (r : R (WState V × Option Str)) :
    dropPath (r.map (mapPath g)) = (dropPath r).map (WState.mapRows g) := by
  cases r <;> rfl

theorem finish_map (g : V → W) (w : WState V) (T : List Nat) :
    (w.mapRows g).finish T = (w.finish T).map (H5File.mapRows g) := by
  unfold WState.finish
  have h : (w.mapRows g).indexes = w.indexes := rfl
  rw [h]
  cases foldE writeIndexGroup [] w.indexes <;> rfl

theorem writeSource_map (g : V → W) {c : DC V} {add : WState V → Str → Str → R (WState V)}
    {add' : WState W → Str → Str → R (WState W)}
    (ha : ∀ w s k, add' (w.mapRows g) s k = (add w s k).map (WState.mapRows g)) (w : WState V) (s : Str) :
    writeSource (c.mapRows g) add' (w.mapRows g) s = (writeSource c add w s).map (WState.mapRows g) := by
  unfold writeSource
  rw [keysForSource_map]
  cases c.keysForSource s with
  | error e => rfl
  | ok ks =>
    have := foldE_natural (f := fun w key => add w s key) (f' := fun w key => add' w s key) (h := id)
      (k := WState.mapRows g) (l := ks) (fun w k _ => ha w s k) w
    rwa [List.map_id] at this

theorem writeWith_map (g : V → W) {c : DC V} {addC addI : WState V → Str → Str → R (WState V)}
    {addC' addI' : WState W → Str → Str → R (WState W)}
    (hC : ∀ w s k, addC' (w.mapRows g) s k = (addC w s k).map (WState.mapRows g))
    (hI : ∀ w s k, addI' (w.mapRows g) s k = (addI w s k).map (WState.mapRows g)) :
    writeWith (c.mapRows g) addC' addI' = (writeWith c addC addI).map (H5File.mapRows g) := by
  unfold writeWith
  rw [controlSources_map, instrumentSources_map]
  have h1 := foldE_natural (f := writeSource c addC) (f' := writeSource (c.mapRows g) addC') (h := id)
    (k := WState.mapRows g) (l := c.controlSources) (fun w s _ => writeSource_map g hC w s) WState.new
  rw [List.map_id] at h1
  have h0 : (WState.new : WState W) = (WState.new : WState V).mapRows g := rfl
  rw [h0, h1]
  cases foldE (writeSource c addC) WState.new c.controlSources with
  | error e => rfl
  | ok w =>
    have h2 := foldE_natural (f := writeSource c addI) (f' := writeSource (c.mapRows g) addI') (h := id)
      (k := WState.mapRows g) (l := c.instrumentSources) (fun w s _ => writeSource_map g hI w s) w
    rw [List.map_id] at h2
    simp only [Except.map]
    rw [h2]
    cases foldE (writeSource c addI) w c.instrumentSources with
    | error e => rfl
    | ok w' => exact finish_map g w' c.trainIds

/-- `write_virtual` does not look at the values. -/
theorem writeVirtual_map (g : V → W) (c : DC V) : (c.mapRows g).writeVirtual = c.writeVirtual.map (H5File.mapRows g) := by
  unfold DC.writeVirtual
  refine writeWith_map g ?_ ?_
  · intro w s k
    rw [vAddControl_map, dropPath_map]
  · intro w s k
    rw [vAddInstrument_map, dropPath_map]

/-- A dataset with its file, with other values. -/
def mapPair (g : V → W) (x : Dataset V × H5File V) : Dataset W × H5File W := (x.1.mapRows g, x.2.mapRows g)

theorem finishVirtual_map (g : V → W) (c : DC V) (r : R (WState V × Option Str)) :
    finishVirtual (c.mapRows g) (r.map (mapPath g)) = (finishVirtual c r).map (mapPair g) := by
  unfold finishVirtual
  cases r with
  | error e => rfl
  | ok x =>
    obtain ⟨w, path⟩ := x
    have h : (c.mapRows g).trainIds = c.trainIds := rfl
    simp only [Except.map, mapPath, finish_map, h]
    cases w.finish c.trainIds with
    | error e => rfl
    | ok h5 =>
      dsimp only
      cases path with
      | none => rfl
      | some p =>
        simp only [H5File.mapRows, get?_mapVal]
        cases h5.datasets.get? (h5path p) <;> rfl

/-- `get_virtual_dataset` does not look at the values. -/
theorem getVirtualDataset_map (g : V → W) (c : DC V) (s k : Str) :
    (c.mapRows g).getVirtualDataset s k = (c.getVirtualDataset s k).map (mapPair g) := by
  unfold DC.getVirtualDataset
  rw [checkField_map, controlSources_map]
  cases c.checkField s k with
  | error e => rfl
  | ok u =>
    have h0 : (WState.new : WState W) = (WState.new : WState V).mapRows g := rfl
    dsimp only
    rw [h0, vAddControl_map, vAddInstrument_map, finishVirtual_map, finishVirtual_map]
    split <;> rfl

end KD
