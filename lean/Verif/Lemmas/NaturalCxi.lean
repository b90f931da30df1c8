/-
The code which makes CXI files does not look at the values in datasets, apart from the pulse IDs.
-/
import Verif.Lemmas.Natural

namespace KD

variable {V W A B : Type}

/-- A detector with other values. -/
def Det.mapRows (g : V → W) (d : Det V) : Det W := ⟨d.name, d.sourceToModno, d.framesPerTrain, d.data.mapRows g⟩

/-- A grid with other values. -/
def Grid.mapCells (k : A → B) (x : Grid A) : Grid B := ⟨x.rows, x.cols, fun r c => k (x.cell r c)⟩

theorem assign_map (k : A → B) (x : Grid A) (broadcast : Bool) (start n col : Nat) (vals : List A) :
    (x.mapCells k).assign broadcast start n col (vals.map k) = (x.assign broadcast start n col vals).map (Grid.mapCells k) := by
  unfold Grid.assign
  have h1 : (x.mapCells k).cols = x.cols := rfl
  rw [h1, List.length_map]
  by_cases hc : x.cols ≤ col
  · rw [if_pos hc, if_pos hc]; rfl
  · rw [if_neg hc, if_neg hc]
    by_cases hl : vals.length = n
    · rw [if_pos hl, if_pos hl]
      simp only [Except.map, Grid.mapCells]
      congr 2
      funext r c
      by_cases hr : c = col ∧ start ≤ r ∧ r < start + n
      · simp only [if_pos hr, List.getElem?_map]
        cases vals[r - start]? <;> rfl
      · simp only [if_neg hr]
    · rw [if_neg hl, if_neg hl]
      match vals with
      | [] => rfl
      | [v] =>
        cases broadcast with
        | false => rfl
        | true =>
          simp only [Except.map, Grid.mapCells, List.map_cons, List.map_nil, if_true]
          congr 2
          funext r c
          by_cases hr : c = col ∧ start ≤ r ∧ r < start + n
          · simp only [if_pos hr]
          · simp only [if_neg hr]
      | _ :: _ :: _ => rfl

theorem mapLoop_map (k : A → B) (ix : Dict Nat Nat) (perFrame : List Nat) (broadcast : Bool) (data : List A) (col : Nat) :
    ∀ (fuel start : Nat) (ts : List Nat) (x : Grid A),
      mapLoop ix perFrame broadcast (data.map k) col fuel start ts (x.mapCells k) =
        (mapLoop ix perFrame broadcast data col fuel start ts x).map (Grid.mapCells k)
  | _, _, [], x => by unfold mapLoop; rfl
  | 0, _, _ :: _, _ => by unfold mapLoop; rfl
  | fuel + 1, start, t :: ts, x => by
    unfold mapLoop
    cases ix.get? t with
    | none => rfl
    | some tgt =>
      dsimp only
      split
      · rfl
      · split
        · rfl
        · rw [sl_map, assign_map]
          cases x.assign broadcast tgt (nMatch (t :: ts) (sl perFrame tgt (tgt + (t :: ts).length))) col
            (sl data start (start + nMatch (t :: ts) (sl perFrame tgt (tgt + (t :: ts).length)))) with
          | error e => rfl
          | ok x' => exact mapLoop_map k ix perFrame broadcast data col fuel _ _ x'

theorem mapChunk_map (g : V → W) (k : A → B) (d : Det V) (broadcast : Bool) (col : Nat) (ch : Chunk V) (data : List A)
    (x : Grid A) :
    mapChunk (d.mapRows g) broadcast col (ch.mapRows g) (data.map k) (x.mapCells k) =
      (mapChunk d broadcast col ch data x).map (Grid.mapCells k) := by
  unfold mapChunk
  have h1 : (ch.mapRows g).trainIds = ch.trainIds := rfl
  have h2 : (ch.mapRows g).counts = ch.counts := rfl
  have h3 : (ch.mapRows g).first = ch.first := rfl
  have h4 : (d.mapRows g).trainIdToIx = d.trainIdToIx := rfl
  have h5 : (d.mapRows g).tidsPerFrame = d.tidsPerFrame := rfl
  rw [h1, h2, h3, h4, h5]
  cases npRepeatE ch.trainIds ch.counts with
  | error e => rfl
  | ok tids => exact mapLoop_map k _ _ _ _ _ _ _ _ _

theorem mapSource_map (g : V → W) (k : A → B) (d : Det V) (broadcast : Bool) (key : Str) {conv : Dataset V → R (List A)}
    {conv' : Dataset W → R (List B)} (hc : ∀ ds, conv' (ds.mapRows g) = (conv ds).map (List.map k)) (x : Grid A) (y : Str × Nat) :
    mapSource (d.mapRows g) broadcast key conv' (x.mapCells k) y = (mapSource d broadcast key conv x y).map (Grid.mapCells k) := by
  unfold mapSource
  have h1 : (d.mapRows g).data = d.data.mapRows g := rfl
  rw [h1, findDataChunks_map]
  cases d.data.findDataChunks y.1 key with
  | error e => rfl
  | ok chunks =>
    simp only [Except.map]
    refine foldE_natural (h := Chunk.mapRows g) (k := Grid.mapCells k) ?_ x
    intro x ch _
    rw [chunkDataset_map]
    cases ch.dataset with
    | error e => rfl
    | ok ds =>
      simp only [Except.map, hc]
      cases conv ds with
      | error e =>
        have h1 : (ch.mapRows g).trainIds = ch.trainIds := rfl
        have h2 : (ch.mapRows g).counts = ch.counts := rfl
        rw [h1, h2]
        simp only
        split <;> rfl
      | ok data => exact mapChunk_map g k d broadcast y.2 ch data x

theorem collectPulseIds_map (g : V → W) (d : Det V) (num : W → Nat) :
    (d.mapRows g).collectPulseIds num = d.collectPulseIds (fun v => num (g v)) := by
  unfold Det.collectPulseIds
  have h1 := foldE_natural (l := d.sourceToModno) (h := id) (k := Grid.mapCells (id : Nat → Nat))
    (f := mapSource d true (ch! "image.pulseId") (fun ds => .ok (ds.rows.map (fun v => num (g v)))))
    (f' := mapSource (d.mapRows g) true (ch! "image.pulseId") (fun ds => .ok (ds.rows.map num)))
    (fun x y _ => mapSource_map g id d true _ (fun ds => by simp [Dataset.mapRows, Except.map]) x y)
    ⟨d.nframes, nModules, fun _ _ => noPulseId⟩
  rw [List.map_id] at h1
  have h2 : (⟨(d.mapRows g).nframes, nModules, fun _ _ => noPulseId⟩ : Grid Nat) =
    Grid.mapCells id ⟨d.nframes, nModules, fun _ _ => noPulseId⟩ := rfl
  have h3 : (d.mapRows g).sourceToModno = d.sourceToModno := rfl
  rw [h2, h3, h1]
  cases foldE (mapSource d true (ch! "image.pulseId") (fun ds => .ok (ds.rows.map (fun v => num (g v)))))
    ⟨d.nframes, nModules, fun _ _ => noPulseId⟩ d.sourceToModno <;> rfl

theorem collectLayout_map (g : V → W) (d : Det V) (name : Str) (rowShape : List Nat) :
    (d.mapRows g).collectLayout name rowShape = (d.collectLayout name rowShape).map (Grid.mapCells (Option.map g)) := by
  unfold Det.collectLayout
  have h1 := foldE_natural (l := d.sourceToModno) (h := id) (k := Grid.mapCells (Option.map g))
    (f := mapSource d false (ch! "image." ++ name)
      (fun ds => if ds.rowShape.prod = rowShape.prod then .ok (ds.rows.map some) else .error .value))
    (f' := mapSource (d.mapRows g) false (ch! "image." ++ name)
      (fun ds => if ds.rowShape.prod = rowShape.prod then .ok (ds.rows.map some) else .error .value))
    (fun x y _ => mapSource_map g (Option.map g) d false _ (fun ds => by
      simp only [Dataset.mapRows]
      split <;> (rename_i hp; simp [hp, Except.map, Function.comp_def])) x y)
    ⟨d.nframes, nModules, fun _ _ => none⟩
  rw [List.map_id] at h1
  exact h1

/-- A layout with other values. -/
def Layout.mapRows (g : V → W) (l : Layout V) : Layout W := ⟨l.name, l.rowShape, l.grid.mapCells (Option.map g)⟩

/-- A CXI file with other values. -/
def Cxi.mapRows (g : V → W) (x : Cxi V) : Cxi W :=
  ⟨x.experimentIds, x.pulseIds, x.trainIds, x.dataGain, x.layouts.map (Layout.mapRows g), x.modules⟩

theorem layout_map (g : V → W) (d : Det V) (x : Str × List Nat) :
    (d.mapRows g).layout x = (d.layout x).map (Layout.mapRows g) := by
  unfold Det.layout
  rw [collectLayout_map]
  cases d.collectLayout x.1 x.2 <;> rfl

theorem layoutShapes_map (g : V → W) (f : FileAccess V) (s : Str) (shape : List Nat) :
    layoutShapes (f.mapRows g) s shape = layoutShapes f s shape := by
  unfold layoutShapes
  simp only [dataset_map]
  cases f.dataset ch! "INSTRUMENT" s (ch! "image." ++ ch! "gain") <;>
    cases f.dataset ch! "INSTRUMENT" s (ch! "image." ++ ch! "data") <;>
    cases f.dataset ch! "INSTRUMENT" s (ch! "image." ++ ch! "mask") <;>
    cases f.dataset ch! "INSTRUMENT" s (ch! "image." ++ ch! "cellId") <;> rfl

theorem collectData_map (g : V → W) (d : Det V) (shape : List Nat) :
    (d.mapRows g).collectData shape = (d.collectData shape).map (List.map (Layout.mapRows g)) := by
  unfold Det.collectData
  have h3 : (d.mapRows g).sourceToModno = d.sourceToModno := rfl
  rw [h3]
  cases hs : d.sourceToModno with
  | nil => rfl
  | cons y ys =>
    obtain ⟨source, m⟩ := y
    have h1 : (d.mapRows g).data = d.data.mapRows g := rfl
    simp only [h1, sourceIndex_map]
    cases d.data.sourceIndex source with
    | nil => rfl
    | cons f fs =>
      simp only [List.map_cons, layoutShapes_map]
      cases layoutShapes f source shape with
      | error e => rfl
      | ok shapes =>
        have := mapE_natural (f := d.layout) (f' := (d.mapRows g).layout) (h := id) (k := Layout.mapRows g) (l := shapes)
          (fun x _ => layout_map g d x)
        rwa [List.map_id] at this

/-- `write_virtual_cxi` does not look at the values, apart from the pulse IDs. -/
theorem writeVirtualCxi_map (g : V → W) (d : Det V) (num : W → Nat) (shape : List Nat) :
    (d.mapRows g).writeVirtualCxi num shape = (d.writeVirtualCxi (fun v => num (g v)) shape).map (Cxi.mapRows g) := by
  unfold Det.writeVirtualCxi
  rw [collectPulseIds_map, collectData_map]
  cases d.collectPulseIds (fun v => num (g v)) with
  | error e => rfl
  | ok ps =>
    cases d.collectData shape with
    | error e => rfl
    | ok ls =>
      simp only [Except.map]
      cases ls with
      | nil => rfl
      | cons l ls =>
        have h1 : (l.mapRows g).rowShape = l.rowShape := rfl
        simp only [List.map_cons, h1]
        cases dataGain l.rowShape <;> rfl

end KD
