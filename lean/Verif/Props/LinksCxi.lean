/-
C117: what virtual CXI files show when they are read later.
-/
import Verif.Lemmas.RefsInit
import Verif.Props.Cxi

namespace KD

open Spec

variable {V : Type}

theorem refs_validIn {c : DC V} {b : Bool} {s k : Str} (h : ValidIn c b s k) : ValidIn c.refs b s k := by
  intro g hg hh
  obtain ⟨f, hf, rfl⟩ := refs_mem.1 hg
  exact refs_validField (h f hf hh)

theorem refs_followsIn {c : DC V} {T : List Nat} {b : Bool} {s k : Str} (h : FollowsIn c T b s k) : FollowsIn c.refs T b s k := by
  intro g hg hh
  obtain ⟨f, hf, rfl⟩ := refs_mem.1 hg
  obtain ⟨h1, h2, h3, h4⟩ := h f hf hh
  exact ⟨h1, h2, refs_indexedField h3, h4⟩

theorem refs_hasImages {c : DC V} {s : Str} (h : HasImages c s) : HasImages c.refs s := by
  refine ⟨fun g hg hh => ?_, ?_⟩
  · obtain ⟨f, hf, rfl⟩ := refs_mem.1 hg
    exact refs_indexedField (h.1 f hf hh)
  intro g hg hh
  obtain ⟨f, hf, rfl⟩ := refs_mem.1 hg
  have := h.2 f hf hh
  unfold FileHasKey at this ⊢
  rw [refs_getKeys]
  exact this

theorem refs_noConflict {fs : List (FileAccess V)} (h : NoConflict fs) : NoConflict (fs.map FileAccess.refs) := by
  unfold NoConflict at *
  exact List.pairwise_map.2 (h.imp fun hc => hc)

/-- A frame as a reference: the file, dataset and position. -/
theorem refs_frameAt {c : DC V} {s k : Str} {t n : Nat} {x : Ref} :
    FrameAt c.refs s k t n x ↔ ∃ f ∈ c.files, Holds f s ∧ ∃ i, (entryPositions f true s k t)[n]? = some i ∧
      x = ⟨f.filename, fieldPath true s k, i⟩ := by
  unfold FrameAt
  constructor
  · rintro ⟨g, hg, hh, he⟩
    obtain ⟨f, hf, rfl⟩ := refs_mem.1 hg
    rw [refs_fileEntries, List.getElem?_map] at he
    cases hi : (entryPositions f true s k t)[n]? with
    | none => rw [hi] at he; cases he
    | some i =>
      rw [hi] at he
      exact ⟨f, hf, hh, i, hi, (Option.some.inj he).symm⟩
  · rintro ⟨f, hf, hh, i, hi, rfl⟩
    refine ⟨f.refs, refs_mem.2 ⟨f, hf, rfl⟩, hh, ?_⟩
    rw [refs_fileEntries, List.getElem?_map, hi]; rfl

/-- C117. A file written by `write_virtual_cxi`, read at any later time, has the same rows, train IDs, pulse IDs and
modules, and in the cell of a frame what is now in the file of its module at the place of that frame; cells for which
there is nothing show the fill value. -/
theorem cxi_frames_later {kind : Option Str} {c : DC V} {name : Option Str} {modules : Option (List Nat)} {minModules : Int}
    {d : Det V} (h : Det.init kind c name modules minModules = .ok d) (hc : NoConflict c.files) (hp : PlainSources d)
    (hv : ∀ x ∈ d.sourceToModno, HasImages c x.1) (hm : ModulesInRange d) {num : V → Nat} {moduleShape : List Nat} {x : Cxi Ref}
    {fill : V} {written : Str → Option (H5File V)} (hx : d.writeCxiLinks fill written num moduleShape = .ok x)
    (shows : Str → Option (H5File V)) :
    (∀ l ∈ (x.seen shows).layouts, (∀ s ∈ d.sourceToModno, FollowsIn c d.data.trainIds true s.1 (ch! "image." ++ l.name)) →
      l.grid.rows = d.data.trainIds.length * d.framesPerTrain ∧ l.grid.cols = 16 ∧
      ∀ r col v, r < l.grid.rows → col < l.grid.cols → (l.grid.cell r col = some v ↔
        ∃ source t k, (source, col) ∈ d.sourceToModno ∧ RowOf d.data.trainIds d.framesPerTrain r t k ∧
          FrameNow shows c source (ch! "image." ++ l.name) t k v)) ∧
    ((x.seen shows).trainIds.length = d.data.trainIds.length * d.framesPerTrain ∧
      ∀ r t k, RowOf d.data.trainIds d.framesPerTrain r t k → (x.seen shows).trainIds[r]? = some t ∧
        ∃ p, (x.seen shows).pulseIds[r]? = some p ∧
          (x.seen shows).experimentIds[r]? = some (Nat.toDigits 10 t ++ ch! ":" ++ Nat.toDigits 10 p)) ∧
    ((x.seen shows).modules.Pairwise (· < ·) ∧ ∀ m, m ∈ (x.seen shows).modules ↔ ∃ source, (source, m) ∈ d.sourceToModno) := by
  obtain ⟨h1, ⟨h2, -, h3⟩, -, h4⟩ := cxi_file (refs_init h) (refs_noConflict hc) hp (fun y hy => refs_hasImages (hv y hy)) hm hx
  refine ⟨?_, ⟨h2, h3⟩, h4⟩
  intro l hl hval
  obtain ⟨l, hl0, rfl⟩ := List.mem_map.1 hl
  obtain ⟨e1, e2, e3⟩ := h1 l hl0 (fun s hs => refs_followsIn (hval s hs))
  refine ⟨e1, e2, ?_⟩
  intro r col v hr hcol
  have hcell : (l.seen shows).grid.cell r col = (l.grid.cell r col).bind (Ref.lookup shows) := rfl
  have hname : (l.seen shows).name = l.name := rfl
  rw [hcell, hname, Option.bind_eq_some_iff]
  constructor
  · rintro ⟨y, hy, hv⟩
    obtain ⟨source, t, k, a1, a2, a3⟩ := (e3 r col y hr hcol).1 hy
    obtain ⟨f, hf, hh, i, hi, rfl⟩ := refs_frameAt.1 a3
    rw [lookup_now] at hv
    exact ⟨source, t, k, a1, a2, f, hf, hh, i, hi, hv⟩
  · rintro ⟨source, t, k, a1, a2, f, hf, hh, i, hi, hv⟩
    refine ⟨⟨f.filename, fieldPath true source (ch! "image." ++ l.name), i⟩, ?_, ?_⟩
    · exact (e3 r col _ hr hcol).2 ⟨source, t, k, a1, a2, refs_frameAt.2 ⟨f, hf, hh, i, hi, rfl⟩⟩
    · rw [lookup_now]; exact hv

/-- C117. While the files are as they were, the frames at these places are those of the files. -/
theorem frames_unchanged {shows : Str → Option (H5File V)} {c : DC V} (hu : Unchanged shows c) {source key : Str} {t k : Nat} {v : V} :
    FrameNow shows c source key t k v ↔ FrameAt c source key t k v := by
  unfold FrameNow FrameAt
  refine exists_congr fun f => and_congr_right fun hf => and_congr_right fun hh => ?_
  cases hd : f.dataset (sectionName true) source key with
  | error e =>
    have h1 : entryPositions f true source key t = [] := by
      unfold entryPositions; rw [hd]; cases f.getIndex source (groupName true key) <;> rfl
    have h2 : fileEntries f true source key t = [] := by
      unfold fileEntries; rw [hd]; cases f.getIndex source (groupName true key) <;> rfl
    simp [h1, h2]
  | ok ds =>
    have hg : f.file.datasets.get? (fieldPath true source key) = some ds := by
      unfold FileAccess.dataset need at hd
      unfold fieldPath
      split at hd
      · rename_i h; rw [h]; exact congrArg some (Except.ok.inj hd)
      · cases hd
    have hv : ∀ i, valueNow shows f.filename (fieldPath true source key) i = ds.rows[i]? := by
      intro i
      unfold valueNow
      rw [hu f hf]
      simp only [Option.bind, hg]
    have hk := congrArg (fun l : List (Option V) => l[k]?) (positions_values t hd)
    simp only [List.getElem?_map] at hk
    simp only [hv]
    constructor
    · rintro ⟨i, hi, he⟩
      rw [hi] at hk
      simp only [Option.map_some, he] at hk
      cases hx : (fileEntries f true source key t)[k]? with
      | none => rw [hx] at hk; cases hk
      | some w =>
        rw [hx] at hk
        simp only [Option.map_some, Option.some.injEq] at hk
        rw [hk]
    · intro he
      rw [he] at hk
      cases hi : (entryPositions f true source key t)[k]? with
      | none => rw [hi] at hk; cases hk
      | some i =>
        rw [hi] at hk
        simp only [Option.map_some, Option.some.injEq] at hk
        exact ⟨i, rfl, hk⟩

/-- C117. When the files of a module are gone, its column shows the fill value only, and nothing else changes. -/
theorem cxi_module_missing {kind : Option Str} {c : DC V} {name : Option Str} {modules : Option (List Nat)} {minModules : Int}
    {d : Det V} (h : Det.init kind c name modules minModules = .ok d) (hc : NoConflict c.files) (hp : PlainSources d)
    (hv : ∀ x ∈ d.sourceToModno, HasImages c x.1) (hm : ModulesInRange d) {num : V → Nat} {moduleShape : List Nat} {x : Cxi Ref}
    {fill : V} {written : Str → Option (H5File V)} (hx : d.writeCxiLinks fill written num moduleShape = .ok x)
    {shows : Str → Option (H5File V)} {source : Str} {col : Nat} (hs : (source, col) ∈ d.sourceToModno)
    (hgone : ∀ f ∈ c.files, Holds f source → shows f.filename = none) {l : Layout V} (hl : l ∈ (x.seen shows).layouts)
    (hval : ∀ s ∈ d.sourceToModno, FollowsIn c d.data.trainIds true s.1 (ch! "image." ++ l.name)) {r : Nat} (hr : r < l.grid.rows) :
    l.grid.cell r col = none := by
  obtain ⟨h1, -, -⟩ := cxi_frames_later h hc hp hv hm hx shows
  obtain ⟨-, e2, e3⟩ := h1 l hl hval
  cases hcell : l.grid.cell r col with
  | none => rfl
  | some v =>
    obtain ⟨s, t, k, a1, -, f, hf, hh, i, -, hi⟩ := (e3 r col v hr (by rw [e2]; exact hm _ hs)).1 hcell
    have hn := (init_ok h).2.2.2.1
    have : (s, col) = (source, col) := by
      have hinj := List.inj_on_of_nodup_map hn
      exact hinj a1 hs rfl
    obtain rfl := (Prod.mk.inj this).1
    unfold valueNow at hi
    rw [hgone f hf hh] at hi
    cases hi

/-! ### While nothing changes -/

/-- The cells of a layout with missing values. -/
def Layout.joined (l : Layout (Option V)) : Layout V :=
  ⟨l.name, l.rowShape, l.grid.rows, l.grid.cols, fun r c => (l.grid.cell r c).join⟩

/-- A CXI file with missing values. -/
def Cxi.joined (x : Cxi (Option V)) : Cxi V :=
  ⟨x.experimentIds, x.pulseIds, x.trainIds, x.dataGain, x.layouts.map Layout.joined, x.modules⟩

theorem seen_joined (shows : Str → Option (H5File V)) (x : Cxi Ref) : x.seen shows = (x.mapRows (Ref.lookup shows)).joined := by
  obtain ⟨a, b, c, e, ls, m⟩ := x
  unfold Cxi.seen Cxi.joined Cxi.mapRows
  dsimp only
  congr 1
  rw [List.map_map]
  apply List.map_congr_left
  rintro ⟨n, s, rows, cols, cell⟩ -
  simp only [Function.comp, Layout.seen, Layout.joined, Layout.mapRows, Grid.mapCells]
  congr 2
  funext r c
  cases cell r c <;> rfl

theorem some_joined (x : Cxi V) : (x.mapRows some).joined = x := by
  obtain ⟨a, b, c, e, ls, m⟩ := x
  unfold Cxi.joined Cxi.mapRows
  dsimp only
  congr 1
  rw [List.map_map]
  conv_rhs => rw [← List.map_id ls]
  apply List.map_congr_left
  rintro ⟨n, s, rows, cols, cell⟩ -
  simp only [Function.comp, Layout.joined, Layout.mapRows, Grid.mapCells, id]
  congr 2
  funext r c
  cases cell r c <;> rfl

theorem refs_lookup {shows : Str → Option (H5File V)} {f : FileAccess V} (hn : OneName f.file)
    (hs : shows f.filename = some f.file) : f.refs.mapRows (Ref.lookup shows) = f.mapRows some := by
  obtain ⟨name, T, C, I, h⟩ := f
  obtain ⟨h1, h2, h3, h4, h5, h6, ds⟩ := h
  unfold FileAccess.refs FileAccess.mapRows H5File.mapRows
  dsimp only at hs hn ⊢
  congr 2
  rw [List.map_map]
  apply List.map_congr_left
  rintro ⟨p, d⟩ hp
  have hg : Dict.get? ds p = some d := (Dict.get?_eq_some_iff hn).2 hp
  simp only [Function.comp, Dataset.refs, Dataset.mapRows, List.map_map]
  have : (List.range d.rows.length).map (Ref.lookup shows ∘ fun i => ⟨name, p, i⟩) = d.rows.map some := by
    have h7 : ∀ i, (Ref.lookup shows ∘ fun i => (⟨name, p, i⟩ : Ref)) i = d.rows[i]? := by
      intro i
      simp only [Function.comp, lookup_now, valueNow, hs, Option.bind, hg]
    rw [List.map_congr_left (fun i _ => h7 i)]
    exact range_lookup d.rows
  rw [this]

theorem refs_lookup_all {shows : Str → Option (H5File V)} {c : DC V} (hn : ∀ f ∈ c.files, OneName f.file)
    (hu : Unchanged shows c) : c.refs.mapRows (Ref.lookup shows) = c.mapRows some := by
  obtain ⟨fs, sel, T, x⟩ := c
  unfold DC.refs DC.mapRows
  dsimp only
  congr 1
  rw [List.map_map]
  exact List.map_congr_left (fun f hf => refs_lookup (hn f hf) (hu f hf))

/-- C117. While the files are as they were, the file shows what it is in the model of `write_virtual_cxi` (`cxi_file` and
others), and `write_virtual_cxi` fails with the same exceptions. -/
theorem cxi_file_now {fill : V} {shows : Str → Option (H5File V)} {d : Det V} (hn : ∀ f ∈ d.data.files, OneName f.file)
    (hu : Unchanged shows d.data) (num : V → Nat) (moduleShape : List Nat) :
    d.writeVirtualCxi num moduleShape = (d.writeCxiLinks fill shows num moduleShape).map (Cxi.seen shows) := by
  have h1 := writeVirtualCxi_map (Ref.lookup shows) d.refs (fun o : Option V => num (o.getD fill)) moduleShape
  have h2 := writeVirtualCxi_map some d (fun o : Option V => num (o.getD fill)) moduleShape
  have h3 : d.refs.mapRows (Ref.lookup shows) = d.mapRows some := by
    unfold Det.mapRows Det.refs
    dsimp only
    rw [refs_lookup_all hn hu]
  have h4 : (fun r : Ref => num ((r.lookup shows).getD fill)) = fun r => num (r.read fill shows) := by
    funext r
    unfold Ref.read
    cases r.lookup shows <;> rfl
  rw [h3, h2, h4] at h1
  simp only [Option.getD] at h1
  unfold Det.writeCxiLinks
  revert h1
  cases d.writeVirtualCxi num moduleShape with
  | error e =>
    cases d.refs.writeVirtualCxi (fun r => num (r.read fill shows)) moduleShape with
    | error e' => intro h; simpa [Except.map] using h
    | ok y => intro h; simp [Except.map] at h
  | ok x =>
    cases d.refs.writeVirtualCxi (fun r => num (r.read fill shows)) moduleShape with
    | error e' => intro h; simp [Except.map] at h
    | ok y =>
      intro h
      have h := Except.ok.inj h
      simp only [Except.map]
      rw [seen_joined, ← h, some_joined]

/-! ### An example -/

/-- What the files of `exDetData` show, without the file of module 0. -/
def exShowsDet (name : Str) : Option (H5File Nat) :=
  if name = ch! "0" then none else (exDetData.files.find? (fun f => f.filename == name)).map (fun f => f.file)

/-- What the files show when the file is written. -/
def exShowsAll (name : Str) : Option (H5File Nat) :=
  (exDetData.files.find? (fun f => f.filename == name)).map (fun f => f.file)

/-- The images of a module. -/
def exColumn (m : Nat) (x : Cxi Nat) : List (List (Option Nat)) :=
  x.layouts.map (fun l => (List.range l.grid.rows).map (fun r => l.grid.cell r m))

set_option maxRecDepth 20000 in
/-- C117. Without the file of module 0, the CXI file can be read as before, with fill values for its images; the pulse IDs and
the list of modules are as they were. -/
theorem cxi_missing_wrong :
    ((exDet.writeCxiLinks 0 exShowsAll id [2, 2]).map (Cxi.seen exShowsAll)).map (exColumn 0) =
      .ok [[some 200, some 201, some 210, some 211, some 220, some 221], [some 5, some 7, some 5, some 7, some 5, some 7]] ∧
    ((exDet.writeCxiLinks 0 exShowsAll id [2, 2]).map (Cxi.seen exShowsDet)).map (exColumn 0) =
      .ok [[none, none, none, none, none, none], [none, none, none, none, none, none]] ∧
    ((exDet.writeCxiLinks 0 exShowsAll id [2, 2]).map (Cxi.seen exShowsDet)).map (exColumn 3) =
      .ok [[some 100, some 101, some 110, some 111, none, none], [some 5, some 7, some 5, some 7, none, none]] ∧
    ((exDet.writeCxiLinks 0 exShowsAll id [2, 2]).map (Cxi.seen exShowsDet)).map (fun x => (x.pulseIds, x.modules)) =
      .ok ([5, 7, 5, 7, 5, 7], [0, 3]) :=
  ⟨by decide, by decide, by decide, by decide⟩

/-- The hypotheses of `cxi_frames_later` hold for `exDet`. -/
example : ∃ x, exDet.writeCxiLinks 0 exShowsAll id [2, 2] = .ok x ∧
    ∀ l ∈ (x.seen exShowsDet).layouts, l.name = ch! "data" → l.grid.rows = 6 := by
  cases hx : exDet.writeCxiLinks 0 exShowsAll id [2, 2] with
  | error e =>
    have h := cxi_missing_wrong.1
    rw [hx] at h; cases h
  | ok x =>
    refine ⟨x, rfl, ?_⟩
    intro l hl hname
    have h := (cxi_frames_later exDet_init exDet_hasImages.1 exDet_valid.1 exDet_hasImages.2 exDet_cxi.1 hx exShowsDet).1 l hl
    exact (h (by rw [hname]; exact fun s hs => followsIn_of_valid (exDet_valid.2.1 s hs).1)).1

end KD
