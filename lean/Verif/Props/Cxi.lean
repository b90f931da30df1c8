/- Properties C62 and C63: virtual CXI files. -/
import Verif.Lemmas.Cxi
import Verif.Props.DetInit

set_option linter.unusedSimpArgs false

namespace KD
open Spec

variable {V W : Type}

/-! ### The detector object -/

theorem init_selection {kind : Option Str} {c : DC V} {name : Option Str} {modules : Option (List Nat)} {minModules : Int} {d : Det V}
    (h : Det.init kind c name modules minModules = .ok d) (hp : PlainSources d) {x : Str × Nat} (hx : x ∈ d.sourceToModno) :
    x.1 ∈ d.data.selection.keys := by
  obtain ⟨-, -, hid, -, e, sers, he, -, -, -, hd⟩ := init_ok h
  obtain ⟨sel, h1, h2, rfl⟩ := select_ok_iff.1 he
  obtain ⟨sels, h0, rfl, hmem⟩ := expandGlobs_ok h1
  obtain ⟨new, h3, h4⟩ := (selectTrains_ok_iff h2).1 hd
  have : d.data.selection = unionSelections sels := by rw [h4]; rfl
  rw [this]
  have hall : x.1 ∈ c.allSources := by
    have := ((identify_sources c d.name modules).2.2 _ hid x.1 x.2).1 hx
    simp only [DC.allSources, List.mem_dedup, List.mem_append]
    exact Or.inr this.1
  have hin : (x.1, none) ∈ sels.flatten :=
    (hmem _ _).2 ⟨(x.1, ch! "*"), List.mem_map.2 ⟨x, hx, rfl⟩, hall, (globMatch_literal x.1 x.1 (hp x hx)).2 rfl, globSource_star⟩
  refine Dict.mem_keys_iff.2 ⟨none, ?_⟩
  rw [unionSelections_get?]
  exact ⟨⟨_, hin⟩, by rw [if_pos hin]⟩

theorem frameAt_data {kind : Option Str} {c : DC V} {name : Option Str} {modules : Option (List Nat)} {minModules : Int} {d : Det V}
    (h : Det.init kind c name modules minModules = .ok d) (hp : PlainSources d) {x : Str × Nat} (hx : x ∈ d.sourceToModno)
    {key : Str} {t k : Nat} {v : V} (ht : t ∈ d.data.trainIds) :
    FrameAt d.data x.1 key t k v ↔ FrameAt c x.1 key t k v := by
  obtain ⟨-, -, -, -, h1, h2⟩ := init_data h hp
  constructor
  · rintro ⟨f, hf, hh, hfr⟩; exact ⟨f, h1 f hf, hh, hfr⟩
  · rintro ⟨f, hf, hh, hfr⟩
    refine ⟨f, h2 f hf x hx hh ⟨t, ht, ?_⟩, hh, hfr⟩
    by_contra hn
    rw [fileEntries_notMem hn] at hfr
    simp at hfr

theorem init_good {kind : Option Str} {c : DC V} {name : Option Str} {modules : Option (List Nat)} {minModules : Int} {d : Det V}
    (h : Det.init kind c name modules minModules = .ok d) (hc : NoConflict c.files) (hp : PlainSources d)
    (hv : ∀ x ∈ d.sourceToModno, HasImages c x.1) : GoodDet d := by
  obtain ⟨h1, h2, -⟩ := init_data h hp
  exact ⟨h2, ((detector_frames h hc hp hv _).1 rfl).1, h1⟩

theorem validIn_indexed {c : DC V} {b : Bool} {source key : Str} (h : ValidIn c b source key) : IndexedIn c b source key :=
  fun f hf hh => (h f hf hh).indexed

theorem followsIn_indexed {c : DC V} {T : List Nat} {b : Bool} {source key : Str} (h : FollowsIn c T b source key) :
    IndexedIn c b source key := fun f hf hh => (h f hf hh).2.2.1

theorem fileEntries_length {f : FileAccess V} {source key key' : Str} (h : IndexedField f true source key)
    (h' : IndexedField f true source key') (hk : (partition '.' key).1 = (partition '.' key').1) (t : Nat) :
    (fileEntries f true source key t).length = (fileEntries f true source key' t).length := by
  obtain ⟨firsts, counts, ds, hix, hds, -, -, hb⟩ := h.data
  obtain ⟨firsts', counts', ds', hix', hds', -, -, hb'⟩ := h'.data
  have hg : groupName true key = groupName true key' := by simp only [groupName, if_true, hk]
  have e1 : fileEntries f true source key t = indexEntries f.trainIds firsts counts ds.rows t := by
    unfold fileEntries; rw [hix, hds]
  have e2 : fileEntries f true source key' t = indexEntries f.trainIds firsts' counts' ds'.rows t := by
    unfold fileEntries; rw [hix', hds']
  rw [hg, hix'] at hix
  obtain ⟨rfl, rfl⟩ := Prod.mk.inj (Except.ok.inj hix)
  rw [e1, e2]
  unfold indexEntries
  rw [List.length_flatMap, List.length_flatMap]
  congr 1
  apply List.map_congr_left
  intro x hx
  have hx := (List.of_mem_zip (a := x.1) (b := x.2) (List.mem_filter.1 hx).1).2
  obtain ⟨i, hi⟩ := List.mem_iff_getElem?.1 hx
  rw [List.getElem?_zip_eq_some] at hi
  rw [slice_length (hb i _ _ hi.1 hi.2), slice_length (hb' i _ _ hi.1 hi.2)]

theorem init_uniform {kind : Option Str} {c : DC V} {name : Option Str} {modules : Option (List Nat)} {minModules : Int} {d : Det V}
    (h : Det.init kind c name modules minModules = .ok d) (hc : NoConflict c.files) (hp : PlainSources d)
    (hv : ∀ x ∈ d.sourceToModno, HasImages c x.1) {x : Str × Nat} (hx : x ∈ d.sourceToModno) {key : Str}
    (hk : (partition '.' key).1 = ch! "image") (hvk : IndexedIn c true x.1 key) :
    UniformFrames d.data x.1 key d.framesPerTrain := by
  intro f hf hh t ht
  obtain ⟨-, -, -, h3, h1, h2⟩ := init_data h hp
  have hfc := h1 f hf
  rw [fileEntries_length (hvk f hfc hh) ((hv x hx).1 f hfc hh) hk t]
  by_cases h0 : (fileEntries f true x.1 (ch! "image.data") t).length = 0
  · exact Or.inl h0
  · right
    apply (detector_frames h hc hp hv _).2
    refine ⟨by omega, x.1, t, List.mem_map.2 ⟨x, hx, rfl⟩, h3 t ht, f, hfc, hh, ?_, rfl⟩
    by_contra hn
    rw [fileEntries_notMem hn] at h0
    simp at h0

/-! ### C62: frames -/

/-- Dropping a check on the data changes nothing if mapping succeeded. -/
theorem mapSource_mono {d : Det V} {b : Bool} {key : Str} {conv conv' : Dataset V → R (List W)}
    (hm : ∀ ds y, conv ds = .ok y → conv' ds = .ok y) (ht : ∀ ds, ∃ y, conv' ds = .ok y) {l : List (Str × Nat)} {g g' : Grid W}
    (h : foldE (mapSource d b key conv) g l = .ok g') : foldE (mapSource d b key conv') g l = .ok g' := by
  have hgen : ∀ {α σ : Type} (f f' : σ → α → R σ), (∀ s a s', f s a = .ok s' → f' s a = .ok s') →
      ∀ (l : List α) (s s' : σ), foldE f s l = .ok s' → foldE f' s l = .ok s' := by
    intro α σ f f' hff l
    induction l with
    | nil => intro s s' h; exact h
    | cons a l ih =>
      intro s s' h
      unfold foldE at h ⊢
      cases hf : f s a with
      | error e => rw [hf] at h; simp at h
      | ok s1 =>
        rw [hf] at h
        rw [hff s a s1 hf]
        exact ih s1 s' h
  refine hgen _ _ ?_ l g g' h
  intro s x s' hx
  unfold mapSource at hx ⊢
  cases hch : d.data.findDataChunks x.1 key with
  | error e => rw [hch] at hx; simp at hx
  | ok chunks =>
    rw [hch] at hx
    simp only at hx ⊢
    refine hgen _ _ ?_ chunks s s' hx
    intro s ch s' hs
    cases hds : ch.dataset with
    | error e => rw [hds] at hs; simp at hs
    | ok ds =>
      rw [hds] at hs
      simp only at hs ⊢
      cases hcv : conv ds with
      | error e =>
        rw [hcv] at hs
        obtain ⟨y, hy⟩ := ht ds
        rw [hy]
        simp only at hs ⊢
        split at hs
        · rename_i hrep
          unfold mapChunk
          rw [hrep]
          exact hs
        · simp at hs
      | ok y =>
        rw [hcv] at hs
        rw [hm ds y hcv]
        exact hs

/-- The numbers of the modules are below 16. -/
def Spec.ModulesInRange (d : Det V) : Prop := ∀ x ∈ d.sourceToModno, x.2 < 16

/-- Which entry of a virtual CXI dataset is in which cell: frame number `k` of train `t` of the source with module number
`col` is in column `col` and the row for that frame; other cells are not filled. -/
def Spec.CxiCells (c : DC V) (d : Det V) (key : Str) (g : Grid (Option V)) : Prop :=
  g.rows = d.data.trainIds.length * d.framesPerTrain ∧ g.cols = 16 ∧
  ∀ r col v, r < g.rows → col < g.cols → (g.cell r col = some v ↔
    ∃ source t k, (source, col) ∈ d.sourceToModno ∧ RowOf d.data.trainIds d.framesPerTrain r t k ∧ FrameAt c source key t k v)

theorem cells_of_spec {kind : Option Str} {c : DC V} {name : Option Str} {modules : Option (List Nat)} {minModules : Int} {d : Det V}
    (h : Det.init kind c name modules minModules = .ok d) (hp : PlainSources d) {key : Str} {g : Grid (Option V)}
    (h1 : ∀ x ∈ d.sourceToModno, ∀ r t k v, RowOf d.data.trainIds d.framesPerTrain r t k → FrameAt d.data x.1 key t k v →
      g.cell r x.2 = some v)
    (h2 : ∀ r c, (∀ x ∈ d.sourceToModno, x.2 = c → ∀ t k v, RowOf d.data.trainIds d.framesPerTrain r t k →
      ¬ FrameAt d.data x.1 key t k v) → g.cell r c = none) (r col : Nat) (v : V) :
    g.cell r col = some v ↔
      ∃ source t k, (source, col) ∈ d.sourceToModno ∧ RowOf d.data.trainIds d.framesPerTrain r t k ∧ FrameAt c source key t k v := by
  have hT : ∀ {t k}, RowOf d.data.trainIds d.framesPerTrain r t k → t ∈ d.data.trainIds := by
    rintro t k ⟨i, hi, -⟩; exact List.mem_of_getElem? hi
  constructor
  · intro hcell
    by_cases hex : ∃ x ∈ d.sourceToModno, x.2 = col ∧ ∃ t k v, RowOf d.data.trainIds d.framesPerTrain r t k ∧
        FrameAt d.data x.1 key t k v
    · obtain ⟨⟨s, m⟩, hx, rfl, t, k, v', hr, hf⟩ := hex
      have := h1 _ hx r t k v' hr hf
      rw [hcell] at this
      obtain rfl := Option.some.inj this
      exact ⟨s, t, k, hx, hr, (frameAt_data h hp hx (hT hr)).1 hf⟩
    · rw [h2 r col] at hcell
      · simp at hcell
      · intro x hx he t k v hr hf
        exact hex ⟨x, hx, he, t, k, v, hr, hf⟩
  · rintro ⟨s, t, k, hx, hr, hf⟩
    exact h1 (s, col) hx r t k v hr ((frameAt_data h hp hx (hT hr)).2 hf)

theorem collectLayout_cells {kind : Option Str} {c : DC V} {name : Option Str} {modules : Option (List Nat)} {minModules : Int}
    {d : Det V} (h : Det.init kind c name modules minModules = .ok d) (hc : NoConflict c.files) (hp : PlainSources d)
    (hv : ∀ x ∈ d.sourceToModno, HasImages c x.1) (hm : ModulesInRange d) {nm : Str}
    (hvk : ∀ x ∈ d.sourceToModno, FollowsIn c d.data.trainIds true x.1 (ch! "image." ++ nm)) {shape : List Nat} :
    (∀ g, d.collectLayout nm shape = .ok g → CxiCells c d (ch! "image." ++ nm) g) ∧
    ((∀ x ∈ d.sourceToModno, ∀ f ∈ c.files, Holds f x.1 → ∀ ds, f.dataset (ch! "INSTRUMENT") x.1 (ch! "image." ++ nm) = .ok ds →
      ds.rowShape.prod = shape.prod) → ∃ g, d.collectLayout nm shape = .ok g) := by
  have hgood := init_good h hc hp hv
  have hpart : (partition '.' (ch! "image." ++ nm)).1 = ch! "image" := by
    simp [partition]
  obtain ⟨-, -, -, h3, h4, h5⟩ := init_data h hp
  have hnd := (init_ok h).2.2.2.1
  have hbase : ∀ x ∈ d.sourceToModno, FollowsIn d.data d.data.trainIds true x.1 (ch! "image." ++ nm) ∧ x.1 ∈ d.data.selection.keys ∧
      UniformFrames d.data x.1 (ch! "image." ++ nm) d.framesPerTrain ∧ x.2 < nModules := by
    intro x hx
    exact ⟨fun f hf hh => hvk x hx f (h4 f hf) hh, init_selection h hp hx, init_uniform h hc hp hv hx hpart (followsIn_indexed (hvk x hx)), hm x hx⟩
  constructor
  · intro g hg
    unfold Det.collectLayout at hg
    have hg' := mapSource_mono (conv' := fun ds => .ok (ds.rows.map some)) (by
      intro ds y hy
      split at hy
      · exact hy
      · simp at hy) (fun ds => ⟨_, rfl⟩) hg
    obtain ⟨g2, k1, k2, k3, k4, k5⟩ := mapSources_spec hgood (key := ch! "image." ++ nm) (b := false)
      (conv := fun ds => .ok (ds.rows.map some)) (φ := some) d.sourceToModno ⟨d.nframes, nModules, fun _ _ => none⟩
      (fun x hx => by
        obtain ⟨a1, a2, a3, a4⟩ := hbase x hx
        exact ⟨a1, a2, a3, a4, fun _ _ _ _ _ => rfl⟩) hnd
    rw [hg'] at k1
    obtain rfl := Except.ok.inj k1
    exact ⟨k2, k3, fun r col v _ _ => cells_of_spec h hp k4 k5 r col v⟩
  · intro hshape
    unfold Det.collectLayout
    obtain ⟨g2, k1, -⟩ := mapSources_spec hgood (key := ch! "image." ++ nm) (b := false)
      (conv := fun ds => if ds.rowShape.prod = shape.prod then .ok (ds.rows.map some) else .error .value)
      (φ := some) d.sourceToModno ⟨d.nframes, nModules, fun _ _ => none⟩
      (fun x hx => by
        obtain ⟨a1, a2, a3, a4⟩ := hbase x hx
        refine ⟨a1, a2, a3, a4, fun f hf hh ds hds => ?_⟩
        rw [if_pos (hshape x hx f (h4 f hf) hh ds hds)]) hnd
    exact ⟨g2, k1⟩


/-! ### C63: pulse IDs -/

theorem minOf_spec {l : List Nat} (h : l ≠ []) : minOf l ∈ l ∧ ∀ x ∈ l, minOf l ≤ x := by
  cases l with
  | nil => exact absurd rfl h
  | cons a l =>
    clear h
    show l.foldl min a ∈ a :: l ∧ ∀ x ∈ a :: l, l.foldl min a ≤ x
    induction l generalizing a with
    | nil => simp
    | cons b l ih =>
      rw [List.foldl_cons]
      obtain ⟨h1, h2⟩ := ih (min a b)
      have h3 := h2 (min a b) (by simp)
      refine ⟨?_, ?_⟩
      · rcases List.mem_cons.1 h1 with h | h
        · rw [h]
          rcases Nat.le_total a b with hab | hab
          · simp [Nat.min_eq_left hab]
          · simp [Nat.min_eq_right hab]
        · simp [h]
      · intro x hx
        rcases List.mem_cons.1 hx with rfl | hx
        · omega
        · rcases List.mem_cons.1 hx with rfl | hx
          · omega
          · exact h2 x (by simp [hx])

theorem cxi_foldl_max (l : List Nat) : ∀ a, a ≤ l.foldl max a ∧ (∀ x ∈ l, x ≤ l.foldl max a) ∧
    (l.foldl max a = a ∨ l.foldl max a ∈ l) := by
  induction l with
  | nil => intro a; simp
  | cons b l ih =>
    intro a
    rw [List.foldl_cons]
    obtain ⟨h1, h2, h3⟩ := ih (max a b)
    refine ⟨by omega, ?_, ?_⟩
    · intro x hx
      rcases List.mem_cons.1 hx with rfl | hx
      · omega
      · exact h2 x hx
    · rcases h3 with h | h
      · rcases Nat.le_total a b with hab | hab
        · right; rw [h, Nat.max_eq_right hab]; simp
        · left; rw [h, Nat.max_eq_left hab]
      · right; simp [h]

/-- The row of pulse IDs of one frame: it is accepted with the ID `p` exactly when some module has an ID, and all that have
one have `p`. -/
theorem row_accepted {row : List Nat} (hne : row ≠ []) (hle : ∀ x ∈ row, x ≤ noPulseId) (p : Nat) :
    (minOf row ≠ noPulseId ∧ minOf row = (row.map (fun p => if p = noPulseId then 0 else p)).foldl max 0 ∧ p = minOf row) ↔
      (∃ x ∈ row, x ≠ noPulseId) ∧ ∀ x ∈ row, x ≠ noPulseId → x = p := by
  obtain ⟨h1, h2⟩ := minOf_spec hne
  obtain ⟨-, h3, h4⟩ := cxi_foldl_max (row.map (fun p => if p = noPulseId then 0 else p)) 0
  constructor
  · rintro ⟨a, b, rfl⟩
    refine ⟨⟨_, h1, a⟩, ?_⟩
    intro x hx hxn
    have := h3 x (List.mem_map.2 ⟨x, hx, by rw [if_neg hxn]⟩)
    have := h2 x hx
    omega
  · rintro ⟨⟨x, hx, hxn⟩, hall⟩
    have hmin : minOf row ≠ noPulseId := by
      have := h2 x hx
      have := hle x hx
      omega
    have hp := hall _ h1 hmin
    refine ⟨hmin, ?_, hp.symm⟩
    apply le_antisymm
    · exact h3 _ (List.mem_map.2 ⟨_, h1, by rw [if_neg hmin]⟩)
    · rcases h4 with h | h
      · rw [h]; exact Nat.zero_le _
      · obtain ⟨y, hy, he⟩ := List.mem_map.1 h
        rw [← he]
        by_cases hyn : y = noPulseId
        · rw [if_pos hyn]; exact Nat.zero_le _
        · rw [if_neg hyn, hall y hy hyn, hp]

/-- C63. The pulse IDs are accepted, as `ids`, exactly when each frame has a pulse ID in some module and all modules with
one have that in `ids`; else an exception is raised. -/
theorem cxi_pulse_ids_partial {kind : Option Str} {c : DC V} {name : Option Str} {modules : Option (List Nat)} {minModules : Int}
    {d : Det V} (h : Det.init kind c name modules minModules = .ok d) (hc : NoConflict c.files) (hp : PlainSources d)
    (hv : ∀ x ∈ d.sourceToModno, HasImages c x.1) (hm : ModulesInRange d) (num : V → Nat)
    (hvk : ∀ x ∈ d.sourceToModno, FollowsIn c d.data.trainIds true x.1 (ch! "image.pulseId"))
    (hlow : ∀ x ∈ d.sourceToModno, ∀ t k v, FrameAt c x.1 (ch! "image.pulseId") t k v → num v < 9999) :
    (∀ ids, d.collectPulseIds num = .ok ids ↔
      ids.length = d.data.trainIds.length * d.framesPerTrain ∧
      ∀ r t k, RowOf d.data.trainIds d.framesPerTrain r t k →
        (∃ source col v, (source, col) ∈ d.sourceToModno ∧ FrameAt c source (ch! "image.pulseId") t k v) ∧
        ∀ source col v, (source, col) ∈ d.sourceToModno → FrameAt c source (ch! "image.pulseId") t k v →
          ids[r]? = some (num v)) ∧
    ∀ e, d.collectPulseIds num = .error e → e = .generic := by
  have hgood := init_good h hc hp hv
  have hF := hgood.frames
  obtain ⟨-, -, -, h3, h4, h5⟩ := init_data h hp
  have hnd := (init_ok h).2.2.2.1
  obtain ⟨g, k1, k2, k3, k4, k5⟩ := mapSources_spec hgood (key := ch! "image.pulseId") (b := true)
    (conv := fun ds => .ok (ds.rows.map num)) (φ := num) d.sourceToModno ⟨d.nframes, nModules, fun _ _ => noPulseId⟩
    (fun x hx => ⟨fun f hf hh => hvk x hx f (h4 f hf) hh, init_selection h hp hx,
      init_uniform h hc hp hv hx rfl (followsIn_indexed (hvk x hx)), hm x hx, fun _ _ _ _ _ => rfl⟩) hnd
  simp only at k2 k3 k5
  have hT : ∀ {r t k}, RowOf d.data.trainIds d.framesPerTrain r t k → t ∈ d.data.trainIds := by
    rintro r t k ⟨i, hi, -⟩; exact List.mem_of_getElem? hi
  have hrows : ∀ r, r < d.nframes ↔ ∃ t k, RowOf d.data.trainIds d.framesPerTrain r t k := by
    intro r
    constructor
    · intro hr
      have : r / d.framesPerTrain < d.data.trainIds.length := (Nat.div_lt_iff_lt_mul hF).2 hr
      exact ⟨_, _, rowOf_of_div hF (List.getElem?_eq_getElem this)⟩
    · rintro ⟨t, k, hr⟩
      have := (List.getElem?_eq_some_iff.1 (rowOf_div hr).1).1
      exact (Nat.div_lt_iff_lt_mul hF).1 this
  -- what the row of a frame is
  have hrow : ∀ r t k, RowOf d.data.trainIds d.framesPerTrain r t k → ∀ p, (p ∈ g.row r ∧ p ≠ noPulseId ↔
      ∃ source col v, (source, col) ∈ d.sourceToModno ∧ FrameAt c source (ch! "image.pulseId") t k v ∧ num v = p) := by
    intro r t k hr p
    constructor
    · rintro ⟨hmem, hne⟩
      obtain ⟨col, -, hcol⟩ := List.mem_map.1 hmem
      by_cases hex : ∃ x ∈ d.sourceToModno, x.2 = col ∧ ∃ v, FrameAt d.data x.1 (ch! "image.pulseId") t k v
      · obtain ⟨x, hx, rfl, v, hf⟩ := hex
        have := k4 x hx r t k v hr hf
        exact ⟨x.1, x.2, v, hx, (frameAt_data h hp hx (hT hr)).1 hf, by rw [← this, hcol]⟩
      · exfalso
        rw [k5 r col] at hcol
        · exact hne hcol.symm
        · intro x hx he t' k' v hr' hf
          have e1 := rowOf_div hr
          have e2 := rowOf_div hr'
          rw [e1.1] at e2
          obtain ⟨e3, e4⟩ := e2
          obtain rfl := Option.some.inj e3
          rw [e4, ← e1.2] at hf
          exact hex ⟨x, hx, he, v, hf⟩
    · rintro ⟨source, col, v, hx, hf, rfl⟩
      have := k4 _ hx r t k v hr ((frameAt_data h hp hx (hT hr)).2 hf)
      have hl := hlow _ hx t k v hf
      refine ⟨List.mem_map.2 ⟨col, List.mem_range.2 ?_, this⟩, by unfold noPulseId; omega⟩
      rw [k3]; exact hm _ hx
  have hle : ∀ r, r < d.nframes → ∀ x ∈ g.row r, x ≤ noPulseId := by
    intro r hr x hx
    obtain ⟨t, k, hr⟩ := (hrows r).1 hr
    by_cases hxn : x = noPulseId
    · exact le_of_eq hxn
    · obtain ⟨source, col, v, hx', hf, rfl⟩ := (hrow r t k hr x).1 ⟨hx, hxn⟩
      have := hlow _ hx' t k v hf
      unfold noPulseId; omega
  have hrne : ∀ r, g.row r ≠ [] := by
    intro r hnil
    have : (g.row r).length = 16 := by unfold Grid.row; rw [List.length_map, List.length_range, k3]; rfl
    rw [hnil] at this
    simp at this
  have hmain : ∀ (r t k : Nat), RowOf d.data.trainIds d.framesPerTrain r t k → ∀ p,
      (minOf (g.row r) ≠ noPulseId ∧ minOf (g.row r) = ((g.row r).map (fun p => if p = noPulseId then 0 else p)).foldl max 0 ∧
        p = minOf (g.row r)) ↔
      (∃ source col v, (source, col) ∈ d.sourceToModno ∧ FrameAt c source (ch! "image.pulseId") t k v) ∧
        ∀ source col v, (source, col) ∈ d.sourceToModno → FrameAt c source (ch! "image.pulseId") t k v → num v = p := by
    intro r t k hr p
    rw [row_accepted (hrne r) (hle r ((hrows r).2 ⟨t, k, hr⟩)) p]
    constructor
    · rintro ⟨⟨x, hx, hxn⟩, hall⟩
      obtain ⟨source, col, v, hx', hf, -⟩ := (hrow r t k hr x).1 ⟨hx, hxn⟩
      refine ⟨⟨source, col, v, hx', hf⟩, ?_⟩
      intro source' col' v' hx'' hf'
      obtain ⟨m1, m2⟩ := (hrow r t k hr (num v')).2 ⟨source', col', v', hx'', hf', rfl⟩
      exact hall _ m1 m2
    · rintro ⟨⟨source, col, v, hx, hf⟩, hall⟩
      obtain ⟨m1, m2⟩ := (hrow r t k hr (num v)).2 ⟨source, col, v, hx, hf, rfl⟩
      refine ⟨⟨_, m1, m2⟩, ?_⟩
      intro x hx' hxn
      obtain ⟨source', col', v', hx'', hf', rfl⟩ := (hrow r t k hr x).1 ⟨hx', hxn⟩
      exact hall _ _ _ hx'' hf'
  unfold Det.collectPulseIds
  rw [k1]
  simp only [k2]
  constructor
  · intro ids
    constructor
    · intro hok
      split at hok
      · simp at hok
      · rename_i hany
        split at hok
        · simp at hok
        · rename_i heq
          obtain rfl := Except.ok.inj hok
          refine ⟨by simp [Det.nframes], ?_⟩
          intro r t k hr
          have hlt := (hrows r).2 ⟨t, k, hr⟩
          have hn : minOf (g.row r) ≠ noPulseId := by
            intro he
            apply hany
            rw [List.any_eq_true]
            exact ⟨minOf (g.row r), List.mem_map.2 ⟨r, List.mem_range.2 hlt, rfl⟩, by simp [he]⟩
          have he : minOf (g.row r) = ((g.row r).map (fun p => if p = noPulseId then 0 else p)).foldl max 0 := by
            have := congrArg (fun l => l[r]?) (not_not.1 heq)
            simpa [hlt] using this
          obtain ⟨a1, a2⟩ := (hmain r t k hr _).1 ⟨hn, he, rfl⟩
          refine ⟨a1, ?_⟩
          intro source col v hx hf
          rw [a2 source col v hx hf]
          simp [hlt]
    · rintro ⟨hlen, hall⟩
      have hcell : ∀ r, r < d.nframes → ∃ p, ids[r]? = some p ∧ minOf (g.row r) ≠ noPulseId ∧
          minOf (g.row r) = ((g.row r).map (fun p => if p = noPulseId then 0 else p)).foldl max 0 ∧ p = minOf (g.row r) := by
        intro r hr
        obtain ⟨t, k, hr'⟩ := (hrows r).1 hr
        have hlt : r < ids.length := by rw [hlen]; exact hr
        refine ⟨ids[r], List.getElem?_eq_getElem hlt, ?_⟩
        apply (hmain r t k hr' _).2
        obtain ⟨a1, a2⟩ := hall r t k hr'
        refine ⟨a1, ?_⟩
        intro source col v hx hf
        have := a2 source col v hx hf
        rw [List.getElem?_eq_getElem hlt] at this
        exact (Option.some.inj this).symm
      rw [if_neg, if_neg]
      · congr 1
        apply List.ext_getElem?
        intro r
        by_cases hr : r < d.nframes
        · obtain ⟨p, e1, -, -, e2⟩ := hcell r hr
          rw [e1, e2]; simp [hr]
        · rw [List.getElem?_eq_none (by simp; omega), List.getElem?_eq_none (by rw [hlen]; exact Nat.le_of_not_lt hr)]
      · rw [not_not]
        apply List.map_congr_left
        intro r hr
        obtain ⟨p, -, -, e, -⟩ := hcell r (List.mem_range.1 hr)
        exact e
      · rw [List.any_eq_true]
        rintro ⟨x, hx, he⟩
        obtain ⟨r, hr, rfl⟩ := List.mem_map.1 hx
        obtain ⟨p, -, e, -, -⟩ := hcell r (List.mem_range.1 hr)
        exact e (by simpa using he)
  · intro e he
    split at he
    · exact (Except.error.inj he).symm
    · split at he
      · exact (Except.error.inj he).symm
      · simp at he


/-! ### The file -/

/-- A file has the key `image.<name>` for the source. -/
def Spec.HasImageKey (f : FileAccess V) (source name : Str) : Prop :=
  ∃ ds, f.dataset (ch! "INSTRUMENT") source (ch! "image." ++ name) = .ok ds

open Classical in
theorem layoutShapes_names {f : FileAccess V} {source : Str} {moduleShape : List Nat} {shapes : List (Str × List Nat)}
    (h : layoutShapes f source moduleShape = .ok shapes) :
    (∀ name, name ∈ shapes.map Prod.fst ↔ name = ch! "data" ∨ name = ch! "cellId" ∨
      (name = ch! "gain" ∧ HasImageKey f source (ch! "gain")) ∨
      (name = ch! "mask" ∧ HasImageKey f source (ch! "gain") ∧ HasImageKey f source (ch! "mask"))) ∧
    (shapes.map Prod.fst).Nodup ∧
    (∀ name shape, (name, shape) ∈ shapes → HasImageKey f source name ∧
      (name = ch! "cellId" → shape = []) ∧
      (name ≠ ch! "cellId" → HasImageKey f source (ch! "gain") → shape = moduleShape) ∧
      (name = ch! "data" → ¬ HasImageKey f source (ch! "gain") →
        ∃ ds, f.dataset (ch! "INSTRUMENT") source (ch! "image.data") = .ok ds ∧ shape = ds.rowShape)) ∧
    ∃ shape, shapes.head? = some (ch! "data", shape) := by
  have e1 : (ch! "image." ++ ch! "gain" : Str) = ch! "image.gain" := rfl
  have e2 : (ch! "image." ++ ch! "mask" : Str) = ch! "image.mask" := rfl
  have e3 : (ch! "image." ++ ch! "data" : Str) = ch! "image.data" := rfl
  have e4 : (ch! "image." ++ ch! "cellId" : Str) = ch! "image.cellId" := rfl
  unfold layoutShapes at h
  simp only [e1, e2, e3, e4] at h
  unfold HasImageKey
  cases hg : f.dataset (ch! "INSTRUMENT") source (ch! "image.gain") <;>
  cases hd : f.dataset (ch! "INSTRUMENT") source (ch! "image.data") <;>
  cases hm : f.dataset (ch! "INSTRUMENT") source (ch! "image.mask") <;>
  cases hc : f.dataset (ch! "INSTRUMENT") source (ch! "image.cellId") <;>
  rw [hg, hd, hm, hc] at h <;> simp only [reduceCtorEq] at h <;> obtain rfl := Except.ok.inj h
  all_goals
    refine ⟨?_, by simp, ?_, _, rfl⟩
    · intro name
      simp [hg, hm]
      try tauto
    · intro name shape hn
      simp only [List.mem_cons, List.not_mem_nil, or_false, Prod.mk.injEq] at hn
      rcases hn with ⟨rfl, rfl⟩ | ⟨rfl, rfl⟩ | ⟨rfl, rfl⟩ | ⟨rfl, rfl⟩ <;> simp [hg, hd, hm, hc] <;> assumption

theorem foldE_keep {α σ : Type} {f : σ → α → R σ} {P : σ → Prop} (hf : ∀ s a s', P s → f s a = .ok s' → P s') :
    ∀ (l : List α) (s s' : σ), P s → foldE f s l = .ok s' → P s' := by
  intro l
  induction l with
  | nil => intro s s' hs h; obtain rfl := Except.ok.inj h; exact hs
  | cons a l ih =>
    intro s s' hs h
    unfold foldE at h
    cases hfa : f s a with
    | error e => rw [hfa] at h; simp at h
    | ok s1 => rw [hfa] at h; exact ih s1 s' (hf s a s1 hs hfa) h

theorem mapLoop_rows {ix : Dict Nat Nat} {perFrame : List Nat} {b : Bool} {data : List W} {col : Nat} :
    ∀ (fuel start : Nat) (ts : List Nat) (g g' : Grid W), mapLoop ix perFrame b data col fuel start ts g = .ok g' →
      g'.rows = g.rows := by
  intro fuel
  induction fuel with
  | zero =>
    intro start ts g g' h
    cases ts with
    | nil => unfold mapLoop at h; rw [Except.ok.inj h]
    | cons t ts => simp [mapLoop] at h
  | succ fuel ih =>
    intro start ts g g' h
    cases ts with
    | nil => unfold mapLoop at h; rw [Except.ok.inj h]
    | cons t ts =>
      unfold mapLoop at h
      split at h
      · simp at h
      · simp only at h
        split at h
        · simp at h
        · split at h
          · simp at h
          · split at h
            · simp at h
            · rename_i g1 hg1
              rw [ih _ _ _ _ h]
              unfold Grid.assign at hg1
              repeat' split at hg1
              all_goals first
                | simp at hg1; done
                | (obtain rfl := Except.ok.inj hg1; rfl)

theorem mapSource_rows {d : Det V} {b : Bool} {key : Str} {conv : Dataset V → R (List W)} {g g' : Grid W} {x : Str × Nat}
    (h : mapSource d b key conv g x = .ok g') : g'.rows = g.rows := by
  unfold mapSource at h
  split at h
  · simp at h
  · rename_i chunks _
    refine foldE_keep (P := fun g' => g'.rows = g.rows) ?_ chunks g g' rfl h
    intro s ch s' hs hs'
    split at hs'
    · simp at hs'
    · split at hs'
      · split at hs'
        · obtain rfl := Except.ok.inj hs'; exact hs
        · simp at hs'
      · unfold mapChunk at hs'
        split at hs'
        · simp at hs'
        · rw [mapLoop_rows _ _ _ _ _ hs', hs]

theorem collectPulseIds_length {d : Det V} {num : V → Nat} {ids : List Nat} (h : d.collectPulseIds num = .ok ids) :
    ids.length = d.nframes := by
  unfold Det.collectPulseIds at h
  split at h
  · simp at h
  · rename_i g hg
    simp only at h
    split at h
    · simp at h
    · split at h
      · simp at h
      · obtain rfl := Except.ok.inj h
        have := foldE_keep (P := fun g : Grid Nat => g.rows = d.nframes) (fun s a s' hs hs' => by rw [mapSource_rows hs', hs])
          _ _ _ rfl hg
        simp [this]

theorem writeVirtualCxi_ok {d : Det V} {num : V → Nat} {moduleShape : List Nat} {x : Cxi V}
    (h : d.writeVirtualCxi num moduleShape = .ok x) :
    ∃ source m rest f fs shapes l ls, d.collectPulseIds num = .ok x.pulseIds ∧ d.sourceToModno = (source, m) :: rest ∧
      d.data.sourceIndex source = f :: fs ∧ layoutShapes f source moduleShape = .ok shapes ∧ mapE d.layout shapes = .ok x.layouts ∧
      x.layouts = l :: ls ∧ dataGain l.rowShape = .ok x.dataGain ∧ x.trainIds = d.tidsPerFrame ∧
      x.experimentIds = List.zipWith (fun t p => natStr t ++ ch! ":" ++ natStr p) d.tidsPerFrame x.pulseIds ∧
      x.modules = (invertDict d.sourceToModno).keys.insertionSort (· ≤ ·) := by
  unfold Det.writeVirtualCxi at h
  cases hpi : d.collectPulseIds num with
  | error e => rw [hpi] at h; simp at h
  | ok ids =>
    rw [hpi] at h
    cases hcd : d.collectData moduleShape with
    | error e => rw [hcd] at h; simp at h
    | ok layouts =>
      rw [hcd] at h
      simp only at h
      split at h
      · simp at h
      · rename_i l ls
        cases hdg : dataGain l.rowShape with
        | error e => rw [hdg] at h; simp at h
        | ok dg =>
          rw [hdg] at h
          obtain rfl := Except.ok.inj h
          unfold Det.collectData at hcd
          split at hcd
          · simp at hcd
          · rename_i source m rest hs
            split at hcd
            · simp at hcd
            · rename_i f fs hfs
              split at hcd
              · simp at hcd
              · rename_i shapes hsh
                exact ⟨source, m, rest, f, fs, shapes, l, ls, rfl, hs, hfs, hsh, hcd, rfl, hdg, rfl, rfl, rfl⟩

theorem layout_ok {d : Det V} {x : Str × List Nat} {l : Layout V} (h : d.layout x = .ok l) :
    l.name = x.1 ∧ l.rowShape = x.2 ∧ d.collectLayout x.1 x.2 = .ok l.grid := by
  unfold Det.layout at h
  split at h
  · simp at h
  · rename_i g hg
    obtain rfl := Except.ok.inj h
    exact ⟨rfl, rfl, hg⟩

theorem layouts_names {d : Det V} {shapes : List (Str × List Nat)} {ls : List (Layout V)} (h : mapE d.layout shapes = .ok ls) :
    ls.map (fun l => (l.name, l.rowShape)) = shapes := by
  induction shapes generalizing ls with
  | nil => obtain rfl := Except.ok.inj h; rfl
  | cons x shapes ih =>
    obtain ⟨l, ls', h1, h2, rfl⟩ := mapE_cons_ok.1 h
    obtain ⟨e1, e2, -⟩ := layout_ok h1
    rw [List.map_cons, ih h2, e1, e2]

/-- C62. What is in a virtual CXI file: the frames of each module in its column, in the rows of their trains and pulses;
the train IDs of the rows, and identifiers made of train ID and pulse ID; the module numbers, in order. -/
theorem cxi_file {kind : Option Str} {c : DC V} {name : Option Str} {modules : Option (List Nat)} {minModules : Int}
    {d : Det V} (h : Det.init kind c name modules minModules = .ok d) (hc : NoConflict c.files) (hp : PlainSources d)
    (hv : ∀ x ∈ d.sourceToModno, HasImages c x.1) (hm : ModulesInRange d) {num : V → Nat} {moduleShape : List Nat} {x : Cxi V}
    (hx : d.writeVirtualCxi num moduleShape = .ok x) :
    (∀ l ∈ x.layouts, (∀ s ∈ d.sourceToModno, FollowsIn c d.data.trainIds true s.1 (ch! "image." ++ l.name)) →
      CxiCells c d (ch! "image." ++ l.name) l.grid) ∧
    (x.trainIds.length = d.data.trainIds.length * d.framesPerTrain ∧
      x.experimentIds.length = d.data.trainIds.length * d.framesPerTrain ∧
      ∀ r t k, RowOf d.data.trainIds d.framesPerTrain r t k → x.trainIds[r]? = some t ∧
        ∃ p, x.pulseIds[r]? = some p ∧ x.experimentIds[r]? = some (Nat.toDigits 10 t ++ ch! ":" ++ Nat.toDigits 10 p)) ∧
    d.collectPulseIds num = .ok x.pulseIds ∧
    (x.modules.Pairwise (· < ·) ∧ ∀ m, m ∈ x.modules ↔ ∃ source, (source, m) ∈ d.sourceToModno) := by
  have hF := (init_good h hc hp hv).frames
  obtain ⟨source, m, rest, f, fs, shapes, l, ls, hpi, hs, hfs, hsh, hls, hl, hdg, htid, hexp, hmod⟩ := writeVirtualCxi_ok hx
  have hlen := collectPulseIds_length hpi
  have htl : x.trainIds.length = d.nframes := by rw [htid]; exact rep_length _ _
  refine ⟨?_, ⟨htl, ?_, ?_⟩, hpi, ?_⟩
  · intro l' hl' hvk
    obtain ⟨y, hy, hly⟩ := (mapE_mem hls).1 hl'
    obtain ⟨e1, -, e3⟩ := layout_ok hly
    rw [e1] at hvk ⊢
    exact (collectLayout_cells h hc hp hv hm hvk).1 _ e3
  · rw [hexp, List.length_zipWith, hlen, ← htid, htl, Nat.min_self]; rfl
  · intro r t k hr
    have ht : x.trainIds[r]? = some t := by
      rw [htid]
      unfold Det.tidsPerFrame
      rw [rep_getElem? _ hF, (rowOf_div hr).1]
    refine ⟨ht, ?_⟩
    have hlt : r < x.pulseIds.length := by
      rw [hlen, ← htl]; exact (List.getElem?_eq_some_iff.1 ht).1
    refine ⟨_, List.getElem?_eq_getElem hlt, ?_⟩
    rw [hexp, List.getElem?_zipWith, ← htid, ht, List.getElem?_eq_getElem hlt]
    rfl
  · have hn := (init_ok h).2.2.2.1
    have hinv := (invertDict_full ((invertDict_length_iff _).2 hn)).2
    have hkeys : (invertDict d.sourceToModno).keys = d.sourceToModno.map Prod.snd := by
      rw [hinv]; unfold Dict.keys; rw [List.map_map]; rfl
    rw [hmod, hkeys]
    have hperm := List.perm_insertionSort (· ≤ ·) (d.sourceToModno.map Prod.snd)
    refine ⟨?_, ?_⟩
    · exact ((List.pairwise_insertionSort (· ≤ ·) _).and (hperm.nodup_iff.2 hn)).imp (fun h => by omega)
    · intro m
      rw [hperm.mem_iff, List.mem_map]
      constructor
      · rintro ⟨y, hy, rfl⟩; exact ⟨y.1, hy⟩
      · rintro ⟨s, hs⟩; exact ⟨_, hs, rfl⟩

/-- C62. Which datasets are in a virtual CXI file: `data` and `cellId`, also `gain` and `mask` if the data is corrected (the
first file has gains). Gains are next to data in an extra dimension if they are so in raw data. -/
theorem cxi_datasets {d : Det V} {num : V → Nat} {moduleShape : List Nat} {x : Cxi V}
    (hx : d.writeVirtualCxi num moduleShape = .ok x) :
    ∃ source m f, (source, m) ∈ d.sourceToModno ∧ f ∈ d.data.files ∧ Holds f source ∧
      (∀ name, name ∈ x.layouts.map Layout.name ↔ name = ch! "data" ∨ name = ch! "cellId" ∨
        (name = ch! "gain" ∧ HasImageKey f source (ch! "gain")) ∨
        (name = ch! "mask" ∧ HasImageKey f source (ch! "gain") ∧ HasImageKey f source (ch! "mask"))) ∧
      (x.layouts.map Layout.name).Nodup ∧
      (∀ l ∈ x.layouts, HasImageKey f source l.name ∧
        (l.name = ch! "cellId" → l.rowShape = []) ∧
        (l.name ≠ ch! "cellId" → HasImageKey f source (ch! "gain") → l.rowShape = moduleShape) ∧
        (l.name = ch! "data" → ¬ HasImageKey f source (ch! "gain") →
          ∃ ds, f.dataset (ch! "INSTRUMENT") source (ch! "image.data") = .ok ds ∧ l.rowShape = ds.rowShape) ∧
        (l.name = ch! "data" →
          (l.rowShape.length = 2 → x.dataGain = none) ∧
          (∀ n rest, l.rowShape = n :: rest → rest.length ≠ 1 → (n = 2 → x.dataGain = some [ch! "data", ch! "gain"]) ∧
            (n ≠ 2 → x.dataGain = some (List.replicate n (ch! "data")))))) := by
  obtain ⟨source, m, rest, f, fs, shapes, l, ls, hpi, hs, hfs, hsh, hls, hl, hdg, htid, hexp, hmod⟩ := writeVirtualCxi_ok hx
  have hf : f ∈ d.data.sourceIndex source := by rw [hfs]; simp
  obtain ⟨hf1, hf2⟩ := mem_sourceIndex.1 hf
  obtain ⟨n1, n2, n3, shape, n4⟩ := layoutShapes_names hsh
  have hnames := layouts_names hls
  have hmap : x.layouts.map Layout.name = shapes.map Prod.fst := by
    rw [← hnames, List.map_map]; rfl
  refine ⟨source, m, f, by rw [hs]; simp, hf1, hf2, ?_, ?_, ?_⟩
  · rw [hmap]; exact n1
  · rw [hmap]; exact n2
  · intro l' hl'
    have hmem : (l'.name, l'.rowShape) ∈ shapes := by
      rw [← hnames]; exact List.mem_map.2 ⟨l', hl', rfl⟩
    obtain ⟨m1, m2, m3, m4⟩ := n3 _ _ hmem
    refine ⟨m1, m2, m3, m4, ?_⟩
    intro hdata
    have : l' = l := by
      have hlmem : l ∈ x.layouts := by rw [hl]; simp
      have hlname : l.name = ch! "data" := by
        rw [← hnames, hl, List.map_cons, List.head?_cons] at n4
        exact congrArg Prod.fst (Option.some.inj n4)
      rw [← hmap] at n2
      exact List.inj_on_of_nodup_map n2 hl' hlmem (by rw [hdata, hlname])
    subst this
    unfold dataGain at hdg
    constructor
    · intro h2
      rw [if_pos h2] at hdg
      exact (Except.ok.inj hdg).symm
    · intro n rest he hne
      rw [he] at hdg
      rw [if_neg (by simpa using hne)] at hdg
      constructor
      · rintro rfl
        exact (Except.ok.inj hdg).symm
      · intro hn
        split at hdg
        · simp at hdg
        · rename_i heq; exact absurd (List.cons.inj heq).1 hn
        · rename_i heq
          rw [(List.cons.inj heq).1]
          exact (Except.ok.inj hdg).symm


/-- All modules have the key `image.<name>`, with entries of the size of `shape`. The index of the files need only be right in each stretch
of trains of the detector. -/
def Spec.ImageKey (c : DC V) (d : Det V) (name : Str) (shape : List Nat) : Prop :=
  ∀ x ∈ d.sourceToModno, FollowsIn c d.data.trainIds true x.1 (ch! "image." ++ name) ∧ ∀ f ∈ c.files, Holds f x.1 → ∀ ds,
    f.dataset (ch! "INSTRUMENT") x.1 (ch! "image." ++ name) = .ok ds → ds.rowShape.prod = shape.prod

theorem imageKey_has {c : DC V} {d : Det V} {name : Str} {shape : List Nat} (h : ImageKey c d name shape) {x : Str × Nat}
    (hx : x ∈ d.sourceToModno) {f : FileAccess V} (hf : f ∈ c.files) (hh : Holds f x.1) : HasImageKey f x.1 name := by
  obtain ⟨_, _, ds, _, hds, _⟩ := ((h x hx).1 f hf hh).2.2.1.data
  exact ⟨ds, hds⟩

/-- C62. The file is written, if pulse IDs are consistent, the keys to be written are there in all modules with the same
size, and the first module has a file with some train of the detector data. `corrected`: the files have gains. -/
theorem cxi_written {kind : Option Str} {c : DC V} {name : Option Str} {modules : Option (List Nat)} {minModules : Int}
    {d : Det V} (h : Det.init kind c name modules minModules = .ok d) (hc : NoConflict c.files) (hp : PlainSources d)
    (hv : ∀ x ∈ d.sourceToModno, HasImages c x.1) (hm : ModulesInRange d) {num : V → Nat} {moduleShape dataShape ids : List Nat}
    (hids : d.collectPulseIds num = .ok ids) (hne : dataShape ≠ [])
    (hfirst : ∀ x, d.sourceToModno.head? = some x → ∃ f ∈ c.files, Holds f x.1 ∧ ∃ t ∈ d.data.trainIds, t ∈ f.trainIds)
    (hdata : ImageKey c d (ch! "data") dataShape) (hcell : ImageKey c d (ch! "cellId") [])
    (corrected : Bool)
    (hraw : corrected = false → ∀ x ∈ d.sourceToModno, ∀ f ∈ c.files, Holds f x.1 → ¬ HasImageKey f x.1 (ch! "gain") ∧
      ∀ ds, f.dataset (ch! "INSTRUMENT") x.1 (ch! "image.data") = .ok ds → ds.rowShape = dataShape)
    (hproc : corrected = true → dataShape = moduleShape ∧ ImageKey c d (ch! "gain") moduleShape ∧
      (ImageKey c d (ch! "mask") moduleShape ∨
        ∀ x ∈ d.sourceToModno, ∀ f ∈ c.files, Holds f x.1 → ¬ HasImageKey f x.1 (ch! "mask"))) :
    ∃ x, d.writeVirtualCxi num moduleShape = .ok x := by
  obtain ⟨-, -, -, -, i1, i2⟩ := init_data h hp
  have hlay : ∀ nm shape, ImageKey c d nm shape → ∃ l, d.layout (nm, shape) = .ok l ∧ l.rowShape = shape := by
    intro nm shape hk
    obtain ⟨g, hg⟩ := (collectLayout_cells h hc hp hv hm (shape := shape) (fun x hx => (hk x hx).1)).2 (fun x hx => (hk x hx).2)
    exact ⟨⟨nm, shape, g⟩, by unfold Det.layout; rw [hg], rfl⟩
  have hdg : ∃ dg, dataGain dataShape = .ok dg := by
    unfold dataGain
    split
    · exact ⟨_, rfl⟩
    · split
      · exact absurd rfl hne
      · exact ⟨_, rfl⟩
      · exact ⟨_, rfl⟩
  cases hs : d.sourceToModno with
  | nil => exact absurd hs (init_sources_ne h)
  | cons x rest =>
    have hx : x ∈ d.sourceToModno := by rw [hs]; simp
    obtain ⟨f0, hf0, hh0, ht0⟩ := hfirst x (by rw [hs]; rfl)
    have hf0' : f0 ∈ d.data.sourceIndex x.1 := mem_sourceIndex.2 ⟨i2 f0 hf0 x hx hh0 ht0, hh0⟩
    cases hsi : d.data.sourceIndex x.1 with
    | nil => rw [hsi] at hf0'; simp at hf0'
    | cons f fs =>
      have hf : f ∈ d.data.sourceIndex x.1 := by rw [hsi]; simp
      obtain ⟨hf1, hf2⟩ := mem_sourceIndex.1 hf
      have hfc := i1 f hf1
      obtain ⟨dsd, e1⟩ := imageKey_has hdata hx hfc hf2
      obtain ⟨dsc, e2⟩ := imageKey_has hcell hx hfc hf2
      obtain ⟨l1, hl1, hr1⟩ := hlay _ _ hdata
      obtain ⟨l4, hl4, -⟩ := hlay _ _ hcell
      obtain ⟨dg, hdg⟩ := hdg
      rw [← hr1] at hdg
      have fin : ∀ shapes ls, layoutShapes f x.1 moduleShape = .ok shapes → mapE d.layout shapes = .ok (l1 :: ls) →
          ∃ x, d.writeVirtualCxi num moduleShape = .ok x := by
        intro shapes ls k1 k2
        have : d.collectData moduleShape = .ok (l1 :: ls) := by
          unfold Det.collectData
          rw [hs]
          simp only [hsi, k1, k2]
        unfold Det.writeVirtualCxi
        rw [hids, this]
        simp only [hdg]
        exact ⟨_, rfl⟩
      cases hcor : corrected with
      | false =>
        obtain ⟨n1, n2⟩ := hraw hcor x hx f hfc hf2
        have n3 := n2 dsd e1
        have e3 : ∃ e, f.dataset (ch! "INSTRUMENT") x.1 (ch! "image." ++ ch! "gain") = .error e := by
          cases hg : f.dataset (ch! "INSTRUMENT") x.1 (ch! "image." ++ ch! "gain") with
          | error e => exact ⟨e, rfl⟩
          | ok ds => exact absurd ⟨ds, hg⟩ n1
        obtain ⟨e, e3⟩ := e3
        apply fin [(ch! "data", dataShape), (ch! "cellId", [])] [l4]
        · unfold layoutShapes
          simp only [e1, e2, e3, n3]
        · simp only [mapE, hl1, hl4]
      | true =>
        obtain ⟨rfl, n2, n3⟩ := hproc hcor
        obtain ⟨dsg, e3⟩ := imageKey_has n2 hx hfc hf2
        obtain ⟨l2, hl2, -⟩ := hlay _ _ n2
        rcases n3 with n3 | n3
        · obtain ⟨dsm, e4⟩ := imageKey_has n3 hx hfc hf2
          obtain ⟨l3, hl3, -⟩ := hlay _ _ n3
          apply fin [(ch! "data", dataShape), (ch! "gain", dataShape), (ch! "mask", dataShape), (ch! "cellId", [])] [l2, l3, l4]
          · unfold layoutShapes
            simp only [e1, e2, e3, e4]
          · simp only [mapE, hl1, hl2, hl3, hl4]
        · have e4 : ∃ e, f.dataset (ch! "INSTRUMENT") x.1 (ch! "image." ++ ch! "mask") = .error e := by
            cases hg : f.dataset (ch! "INSTRUMENT") x.1 (ch! "image." ++ ch! "mask") with
            | error e => exact ⟨e, rfl⟩
            | ok ds => exact absurd ⟨ds, hg⟩ (n3 x hx f hfc hf2)
          obtain ⟨e, e4⟩ := e4
          apply fin [(ch! "data", dataShape), (ch! "gain", dataShape), (ch! "cellId", [])] [l2, l4]
          · unfold layoutShapes
            simp only [e1, e2, e3, e4]
          · simp only [mapE, hl1, hl2, hl4]

/-- C62. The loop mapping a chunk ends, whatever is in the files. -/
theorem mapChunk_returns {d : Det V} {b : Bool} {col : Nat} {ch : Chunk V} {data : List W} {g : Grid W} :
    mapChunk d b col ch data g ≠ .error .noReturn := by
  unfold mapChunk
  split
  · rename_i e he
    unfold npRepeatE at he
    repeat' split at he
    all_goals first
      | simp at he; done
      | (obtain rfl := Except.error.inj he; simp)
  · exact mapLoop_returns _ _ _ _ (le_refl _)

end KD

namespace KD
open Spec

/-! ### Examples -/

theorem exDet_files {f : FileAccess Nat} (hf : f ∈ exDetData.files) {x : Str × Nat} (hx : x ∈ exDet.sourceToModno)
    (hh : Holds f x.1) :
    (f = exModule '3' [10, 11, 12] [0, 2, 4] [2, 2, 0] [5, 7, 5, 7] [100, 101, 110, 111] ∧ x.1 = exSource '3') ∨
    (f = exModule '0' [10, 11, 12] [0, 2, 4] [2, 2, 2] [5, 7, 5, 7, 5, 7] [200, 201, 210, 211, 220, 221] ∧ x.1 = exSource '0') := by
  simp only [exDetData, List.mem_cons, List.not_mem_nil, or_false] at hf
  simp only [exDet, List.mem_cons, List.not_mem_nil, or_false] at hx
  rcases hf with rfl | rfl <;> rcases hx with rfl | rfl
  · exact Or.inl ⟨rfl, rfl⟩
  · exfalso; revert hh; rintro (h | h) <;> revert h <;> decide
  · exfalso; revert hh; rintro (h | h) <;> revert h <;> decide
  · exact Or.inr ⟨rfl, rfl⟩

theorem exDet_cells : ∀ x ∈ exDet.sourceToModno, ValidIn exDetData true x.1 (ch! "image.cellId") := by
  have v3 := exModule_valid (n := '3') (tids := [10, 11, 12]) (firsts := [0, 2, 4]) (counts := [2, 2, 0]) (ids := [5, 7, 5, 7])
    (rows := [100, 101, 110, 111]) (Or.inr rfl) (by decide) (by decide) rfl rfl
    (contiguous_cons rfl (contiguous_cons rfl (contiguous_one _ _)))
    (inBounds_cons (by decide) (inBounds_cons (by decide) (inBounds_cons (by decide) (inBounds_nil _)))) rfl (by decide) (by decide)
  have v0 := exModule_valid (n := '0') (tids := [10, 11, 12]) (firsts := [0, 2, 4]) (counts := [2, 2, 2]) (ids := [5, 7, 5, 7, 5, 7])
    (rows := [200, 201, 210, 211, 220, 221]) (Or.inl rfl) (by decide) (by decide) rfl rfl
    (contiguous_cons rfl (contiguous_cons rfl (contiguous_one _ _)))
    (inBounds_cons (by decide) (inBounds_cons (by decide) (inBounds_cons (by decide) (inBounds_nil _)))) rfl (by decide) (by decide)
  intro x hx f hf hh
  rcases exDet_files hf hx hh with ⟨rfl, e⟩ | ⟨rfl, e⟩ <;> rw [e]
  · exact v3.2.2
  · exact v0.2.2

/-- The example of Props/DetArray.lean meets the hypotheses of the theorems above. -/
theorem exDet_cxi : ModulesInRange exDet ∧ (∀ x ∈ exDet.sourceToModno, ValidIn exDetData true x.1 (ch! "image.pulseId")) ∧
    ImageKey exDetData exDet (ch! "data") [1, 2, 2] ∧ ImageKey exDetData exDet (ch! "cellId") [] ∧
    (∀ x ∈ exDet.sourceToModno, ∀ f ∈ exDetData.files, Holds f x.1 → ¬ HasImageKey f x.1 (ch! "gain") ∧
      ∀ ds, f.dataset (ch! "INSTRUMENT") x.1 (ch! "image.data") = .ok ds → ds.rowShape = [1, 2, 2]) ∧
    ∀ x, exDet.sourceToModno.head? = some x → ∃ f ∈ exDetData.files, Holds f x.1 ∧ ∃ t ∈ exDet.data.trainIds, t ∈ f.trainIds := by
  have v3 := exModule_valid (n := '3') (tids := [10, 11, 12]) (firsts := [0, 2, 4]) (counts := [2, 2, 0]) (ids := [5, 7, 5, 7])
    (rows := [100, 101, 110, 111]) (Or.inr rfl) (by decide) (by decide) rfl rfl
    (contiguous_cons rfl (contiguous_cons rfl (contiguous_one _ _)))
    (inBounds_cons (by decide) (inBounds_cons (by decide) (inBounds_cons (by decide) (inBounds_nil _)))) rfl (by decide) (by decide)
  have v0 := exModule_valid (n := '0') (tids := [10, 11, 12]) (firsts := [0, 2, 4]) (counts := [2, 2, 2]) (ids := [5, 7, 5, 7, 5, 7])
    (rows := [200, 201, 210, 211, 220, 221]) (Or.inl rfl) (by decide) (by decide) rfl rfl
    (contiguous_cons rfl (contiguous_cons rfl (contiguous_one _ _)))
    (inBounds_cons (by decide) (inBounds_cons (by decide) (inBounds_cons (by decide) (inBounds_nil _)))) rfl (by decide) (by decide)
  refine ⟨by unfold ModulesInRange; decide, ?_, ?_, ?_, ?_, ?_⟩
  · intro x hx f hf hh
    rcases exDet_files hf hx hh with ⟨rfl, e⟩ | ⟨rfl, e⟩ <;> rw [e]
    · exact v3.2.1
    · exact v0.2.1
  · intro x hx
    refine ⟨followsIn_of_valid fun f hf hh => ?_, fun f hf hh ds hds => ?_⟩
    · rcases exDet_files hf hx hh with ⟨rfl, e⟩ | ⟨rfl, e⟩ <;> rw [e]
      · exact v3.1
      · exact v0.1
    · rcases exDet_files hf hx hh with ⟨rfl, e⟩ | ⟨rfl, e⟩ <;> rw [e] at hds
      · obtain rfl := Except.ok.inj ((exModule_data (Or.inr rfl)).1.symm.trans hds); rfl
      · obtain rfl := Except.ok.inj ((exModule_data (Or.inl rfl)).1.symm.trans hds); rfl
  · intro x hx
    refine ⟨followsIn_of_valid fun f hf hh => ?_, fun f hf hh ds hds => ?_⟩
    · rcases exDet_files hf hx hh with ⟨rfl, e⟩ | ⟨rfl, e⟩ <;> rw [e]
      · exact v3.2.2
      · exact v0.2.2
    · rcases exDet_files hf hx hh with ⟨rfl, e⟩ | ⟨rfl, e⟩ <;> rw [e] at hds
      · obtain rfl := Except.ok.inj ((exModule_data (Or.inr rfl)).2.2.symm.trans hds); rfl
      · obtain rfl := Except.ok.inj ((exModule_data (Or.inl rfl)).2.2.symm.trans hds); rfl
  · intro x hx f hf hh
    constructor
    · rintro ⟨ds, hds⟩
      rcases exDet_files hf hx hh with ⟨rfl, e⟩ | ⟨rfl, e⟩ <;> rw [e] at hds
      · have : FileAccess.dataset (exModule '3' [10, 11, 12] [0, 2, 4] [2, 2, 0] [5, 7, 5, 7] [100, 101, 110, 111])
            (ch! "INSTRUMENT") (exSource '3') (ch! "image." ++ ch! "gain") = .error .key := by decide
        rw [this] at hds; simp at hds
      · have : FileAccess.dataset (exModule '0' [10, 11, 12] [0, 2, 4] [2, 2, 2] [5, 7, 5, 7, 5, 7] [200, 201, 210, 211, 220, 221])
            (ch! "INSTRUMENT") (exSource '0') (ch! "image." ++ ch! "gain") = .error .key := by decide
        rw [this] at hds; simp at hds
    · intro ds hds
      rcases exDet_files hf hx hh with ⟨rfl, e⟩ | ⟨rfl, e⟩ <;> rw [e] at hds
      · obtain rfl := Except.ok.inj ((exModule_data (Or.inr rfl)).1.symm.trans hds); rfl
      · obtain rfl := Except.ok.inj ((exModule_data (Or.inl rfl)).1.symm.trans hds); rfl
  · intro x hx
    obtain rfl := Option.some.inj hx
    exact ⟨_, List.mem_cons_self, Or.inr (by decide), 10, by decide, by decide⟩

set_option maxRecDepth 20000 in
/-- The file for the example: module 3 has no frames in train 12. -/
theorem exDet_write :
    (exDet.writeVirtualCxi id [2, 2]).map (fun x => (x.trainIds, x.pulseIds, x.modules)) =
    .ok ([10, 10, 11, 11, 12, 12], [5, 7, 5, 7, 5, 7], [0, 3]) ∧
    (exDet.writeVirtualCxi id [2, 2]).map (fun x => x.dataGain) = .ok (some [ch! "data"]) ∧
    (exDet.writeVirtualCxi id [2, 2]).map (fun x => x.experimentIds[1]?) = .ok (some (ch! "10:7")) ∧
    (exDet.writeVirtualCxi id [2, 2]).map (fun x => x.layouts.map (fun l => (l.name, l.rowShape, l.grid.rows, l.grid.cols))) =
    .ok [(ch! "data", [1, 2, 2], 6, 16), (ch! "cellId", [], 6, 16)] ∧
    (exDet.writeVirtualCxi id [2, 2]).map (fun x => x.layouts.map (fun l => (List.range 6).map (fun r => l.grid.cell r 3))) =
    .ok [[some 100, some 101, some 110, some 111, none, none], [some 5, some 7, some 5, some 7, none, none]] :=
  ⟨by decide, by decide, by decide, by decide, by decide⟩

/-- `collect_pulse_ids` gets the same IDs by the condition of `cxi_pulse_ids_partial`: it does not hold of others. -/
example : ¬ exDet.collectPulseIds id = .ok [5, 7, 5, 7, 5, 8] := by decide

/-- The detector object for files of modules 0 and 3 with one train. -/
def exDetOf (files : List (FileAccess Nat)) (sources : List (Str × Nat)) (trainIds all : List Nat) (count : Nat) : DC Nat × Det Nat :=
  let c : DC Nat := ⟨files, sources.map (fun x => (x.1, none)), all, true⟩
  (c, ⟨ch! "X_AGIPD1M-1", sources, count,
    ⟨files.filter (fun f => f.trainIds.any (fun t => trainIds.contains t)), sources.map (fun x => (x.1, none)), trainIds, false⟩⟩)

set_option maxRecDepth 20000 in
/-- C63 is wrong for the pulse ID 9999, which stands for missing data: frames with pulse ID 5 in module 3 and 9999 in module 0
are accepted as frames of the same pulse. -/
theorem cxi_pulse_9999_wrong :
    let files := [exModule '3' [10] [0] [1] [5] [100], exModule '0' [10] [0] [1] [9999] [200]]
    let x := exDetOf files [(exSource '3', 3), (exSource '0', 0)] [10] [10] 1
    Det.init none x.1 none none 1 = .ok x.2 ∧ x.2.collectPulseIds id = .ok [5] := ⟨by decide, by decide⟩

set_option maxRecDepth 20000 in
/-- C63 is wrong for pulse IDs above 9999: a consistent ID in all modules there is refused, as other modules are missing. -/
theorem cxi_pulse_high_wrong :
    let files := [exModule '3' [10] [0] [1] [10000] [100], exModule '0' [10] [0] [1] [10000] [200]]
    let x := exDetOf files [(exSource '3', 3), (exSource '0', 0)] [10] [10] 1
    Det.init none x.1 none none 1 = .ok x.2 ∧ x.2.collectPulseIds id = .error .generic := ⟨by decide, by decide⟩

set_option maxRecDepth 20000 in
/-- C62 is wrong if the first module has no data in the trains selected: here train 11 has data from modules 2 and 3, and no
file is written because module 1 has only train 10. -/
theorem cxi_first_module_wrong :
    let files := [exModule '1' [10] [0] [2] [5, 7] [100, 101], exModule '2' [11] [0] [2] [5, 7] [110, 111],
      exModule '3' [11] [0] [2] [5, 7] [120, 121]]
    let x := exDetOf files [(exSource '1', 1), (exSource '2', 2), (exSource '3', 3)] [11] [10, 11] 2
    Det.init none x.1 none none 2 = .ok x.2 ∧ x.2.collectPulseIds id = .ok [5, 7] ∧
      (x.2.writeVirtualCxi id [2, 2]).map (fun x => x.trainIds) = .error .index := ⟨by decide, by decide, by decide⟩

set_option maxRecDepth 20000 in
/-- A module number of 16 or more is refused. -/
example :
    let file : FileAccess Nat := ⟨ch! "a", [10], [], [ch! "X_AGIPD1M-1/DET/16CH0:xtdf"],
      { trainId := some [10], version := some (ch! "1.0"), sources05 := none, sources10 := some [],
        index := [([ch! "INDEX", ch! "X_AGIPD1M-1", ch! "DET", ch! "16CH0:xtdf", ch! "image"], ⟨some [0#64], some [1#64], none, none⟩)],
        groups := [],
        datasets := [([ch! "INSTRUMENT", ch! "X_AGIPD1M-1", ch! "DET", ch! "16CH0:xtdf", ch! "image", ch! "pulseId"], ⟨[5], [], 0⟩)] }⟩
    let x := exDetOf [file] [(ch! "X_AGIPD1M-1/DET/16CH0:xtdf", 16)] [10] [10] 1
    x.2.collectPulseIds id = .error .index := by decide

end KD
