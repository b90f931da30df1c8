/- Property C133: the order of the files does not matter to virtual CXI files. -/
import Verif.Spec.CxiFileOrder
import Verif.Props.DetFileOrder
import Verif.Props.Cxi

namespace KD
open Spec

variable {V : Type}

/-- The files of all modules are fit for a virtual CXI file: each module has a file with a train of the detector object; all files
have pulse IDs (below 9999), cell IDs and images, with an index which is right in each stretch of trains of the detector; they are all raw, with images of one shape, or all corrected, where they have
gains and either all or none have masks. -/
structure Spec.CxiReady (c : DC V) (d : Det V) (num : V → Nat) (moduleShape dataShape : List Nat) (corrected : Bool) : Prop where
  noConflict : NoConflict c.files
  plain : PlainSources d
  inRange : ModulesInRange d
  images : ∀ x ∈ d.sourceToModno, HasImages c x.1
  pulses : ∀ x ∈ d.sourceToModno, FollowsIn c d.data.trainIds true x.1 (ch! "image.pulseId")
  low : ∀ x ∈ d.sourceToModno, ∀ t k v, FrameAt c x.1 (ch! "image.pulseId") t k v → num v < 9999
  hasFile : ∀ x ∈ d.sourceToModno, ∃ f ∈ c.files, Holds f x.1 ∧ ∃ t ∈ d.data.trainIds, t ∈ f.trainIds
  shape : dataShape ≠ []
  data : ImageKey c d (ch! "data") dataShape
  cellId : ImageKey c d (ch! "cellId") []
  raw : corrected = false → ∀ x ∈ d.sourceToModno, ∀ f ∈ c.files, Holds f x.1 → ¬ HasImageKey f x.1 (ch! "gain") ∧
      ∀ ds, f.dataset (ch! "INSTRUMENT") x.1 (ch! "image.data") = .ok ds → ds.rowShape = dataShape
  proc : corrected = true → dataShape = moduleShape ∧ ImageKey c d (ch! "gain") moduleShape ∧
      (ImageKey c d (ch! "mask") moduleShape ∨
        ∀ x ∈ d.sourceToModno, ∀ f ∈ c.files, Holds f x.1 → ¬ HasImageKey f x.1 (ch! "mask"))

theorem same_frameAt {c c' : DC V} (h : SameContents c c') {source key : Str} {t k : Nat} {v : V} :
    FrameAt c source key t k v ↔ FrameAt c' source key t k v := by
  unfold FrameAt
  simp only [h.files.mem_iff]

theorem same_imageKey {c c' : DC V} {d d' : Det V} (h : SameContents c c') (hd : SameDetector d d') {name : Str} {shape : List Nat}
    (hi : ImageKey c d name shape) : ImageKey c' d' name shape := by
  intro x hx
  obtain ⟨h1, h2⟩ := hi x ((hd.modules x).2 hx)
  exact ⟨hd.data.trains ▸ fun f hf => h1 f (h.files.mem_iff.2 hf), fun f hf => h2 f (h.files.mem_iff.2 hf)⟩

theorem same_cxiReady {c c' : DC V} {d d' : Det V} (h : SameContents c c') (hd : SameDetector d d') {num : V → Nat}
    {moduleShape dataShape : List Nat} {corrected : Bool} (hr : CxiReady c d num moduleShape dataShape corrected) :
    CxiReady c' d' num moduleShape dataShape corrected := by
  have hm := fun {x} => (hd.modules x).2
  have hf := fun {f} => (h.files.mem_iff (a := f)).2
  refine ⟨(noConflict_perm h.files).1 hr.noConflict, fun x hx => hr.plain x (hm hx), fun x hx => hr.inRange x (hm hx), ?_, ?_, ?_, ?_,
    hr.shape, same_imageKey h hd hr.data, same_imageKey h hd hr.cellId, ?_, ?_⟩
  · exact fun x hx => ⟨fun f hff => (hr.images x (hm hx)).1 f (hf hff), fun f hff => (hr.images x (hm hx)).2 f (hf hff)⟩
  · exact fun x hx => hd.data.trains ▸ fun f hff => hr.pulses x (hm hx) f (hf hff)
  · exact fun x hx t k v hv => hr.low x (hm hx) t k v ((same_frameAt h).2 hv)
  · intro x hx
    obtain ⟨f, h1, h2, h3⟩ := hr.hasFile x (hm hx)
    rw [hd.data.trains] at h3
    exact ⟨f, h.files.mem_iff.1 h1, h2, h3⟩
  · exact fun hc x hx f hff => hr.raw hc x (hm hx) f (hf hff)
  · intro hc
    obtain ⟨h1, h2, h3⟩ := hr.proc hc
    exact ⟨h1, same_imageKey h hd h2, h3.imp (same_imageKey h hd) (fun h3 x hx f hff => h3 x (hm hx) f (hf hff))⟩

/-- The layouts are the same whichever file is asked. -/
theorem layoutShapes_ready {c : DC V} {d : Det V} {moduleShape dataShape : List Nat} {corrected : Bool}
    (hdata : ImageKey c d (ch! "data") dataShape) (hcell : ImageKey c d (ch! "cellId") [])
    (hraw : corrected = false → ∀ x ∈ d.sourceToModno, ∀ f ∈ c.files, Holds f x.1 → ¬ HasImageKey f x.1 (ch! "gain") ∧
      ∀ ds, f.dataset (ch! "INSTRUMENT") x.1 (ch! "image.data") = .ok ds → ds.rowShape = dataShape)
    (hproc : corrected = true → dataShape = moduleShape ∧ ImageKey c d (ch! "gain") moduleShape ∧
      (ImageKey c d (ch! "mask") moduleShape ∨
        ∀ x ∈ d.sourceToModno, ∀ f ∈ c.files, Holds f x.1 → ¬ HasImageKey f x.1 (ch! "mask"))) :
    ∃ shapes, (∀ x ∈ d.sourceToModno, ∀ f ∈ c.files, Holds f x.1 → layoutShapes f x.1 moduleShape = .ok shapes) ∧
      ∀ y ∈ shapes, ImageKey c d y.1 y.2 := by
  have absent : ∀ {f : FileAccess V} {s name : Str}, ¬ HasImageKey f s name →
      ∃ e, f.dataset (ch! "INSTRUMENT") s (ch! "image." ++ name) = .error e := by
    intro f s name hn
    cases hg : f.dataset (ch! "INSTRUMENT") s (ch! "image." ++ name) with
    | error e => exact ⟨e, rfl⟩
    | ok ds => exact absurd ⟨ds, hg⟩ hn
  cases hcor : corrected with
  | false =>
    refine ⟨[(ch! "data", dataShape), (ch! "cellId", [])], fun x hx f hf hh => ?_, ?_⟩
    · obtain ⟨dsd, e1⟩ := imageKey_has hdata hx hf hh
      obtain ⟨dsc, e2⟩ := imageKey_has hcell hx hf hh
      obtain ⟨n1, n2⟩ := hraw hcor x hx f hf hh
      obtain ⟨e, e3⟩ := absent n1
      unfold layoutShapes
      simp only [e1, e2, e3, n2 dsd e1]
    · simp only [List.mem_cons, List.not_mem_nil, or_false]
      rintro y (rfl | rfl)
      · exact hdata
      · exact hcell
  | true =>
    obtain ⟨rfl, n2, n3⟩ := hproc hcor
    rcases n3 with n3 | n3
    · refine ⟨[(ch! "data", dataShape), (ch! "gain", dataShape), (ch! "mask", dataShape), (ch! "cellId", [])],
        fun x hx f hf hh => ?_, ?_⟩
      · obtain ⟨dsd, e1⟩ := imageKey_has hdata hx hf hh
        obtain ⟨dsc, e2⟩ := imageKey_has hcell hx hf hh
        obtain ⟨dsg, e3⟩ := imageKey_has n2 hx hf hh
        obtain ⟨dsm, e4⟩ := imageKey_has n3 hx hf hh
        unfold layoutShapes
        simp only [e1, e2, e3, e4]
      · simp only [List.mem_cons, List.not_mem_nil, or_false]
        rintro y (rfl | rfl | rfl | rfl)
        · exact hdata
        · exact n2
        · exact n3
        · exact hcell
    · refine ⟨[(ch! "data", dataShape), (ch! "gain", dataShape), (ch! "cellId", [])], fun x hx f hf hh => ?_, ?_⟩
      · obtain ⟨dsd, e1⟩ := imageKey_has hdata hx hf hh
        obtain ⟨dsc, e2⟩ := imageKey_has hcell hx hf hh
        obtain ⟨dsg, e3⟩ := imageKey_has n2 hx hf hh
        obtain ⟨e, e4⟩ := absent (n3 x hx f hf hh)
        unfold layoutShapes
        simp only [e1, e2, e3, e4]
      · simp only [List.mem_cons, List.not_mem_nil, or_false]
        rintro y (rfl | rfl | rfl)
        · exact hdata
        · exact n2
        · exact hcell

theorem imageKey_files {c c' u : DC V} {d d' : Det V} (hmod : ∀ x, x ∈ d.sourceToModno ↔ x ∈ d'.sourceToModno)
    (hT : d.data.trainIds = d'.data.trainIds)
    (hu : ∀ f, f ∈ u.files ↔ f ∈ c.files ∨ f ∈ c'.files) {nm : Str} {shape : List Nat} :
    ImageKey u d nm shape ↔ ImageKey c d nm shape ∧ ImageKey c' d' nm shape := by
  constructor
  · intro h
    refine ⟨fun x hx => ⟨fun f hf => (h x hx).1 f ((hu f).2 (.inl hf)), fun f hf => (h x hx).2 f ((hu f).2 (.inl hf))⟩, fun x hx => ?_⟩
    have hx := (hmod x).2 hx
    exact ⟨hT ▸ fun f hf => (h x hx).1 f ((hu f).2 (.inr hf)), fun f hf => (h x hx).2 f ((hu f).2 (.inr hf))⟩
  · rintro ⟨h1, h2⟩ x hx
    refine ⟨fun f hf => ?_, fun f hf => ?_⟩
    · rcases (hu f).1 hf with hf | hf
      · exact (h1 x hx).1 f hf
      · rw [hT]; exact (h2 x ((hmod x).1 hx)).1 f hf
    · rcases (hu f).1 hf with hf | hf
      · exact (h1 x hx).2 f hf
      · exact (h2 x ((hmod x).1 hx)).2 f hf

/-- The layouts are the same whichever file of two collections is asked. -/
theorem layoutShapes_alike {c c' : DC V} {d d' : Det V} {num : V → Nat} {moduleShape dataShape : List Nat} {corrected : Bool}
    (hr : CxiReady c d num moduleShape dataShape corrected) (hr' : CxiReady c' d' num moduleShape dataShape corrected)
    (hmod : ∀ x, x ∈ d.sourceToModno ↔ x ∈ d'.sourceToModno) (hT : d.data.trainIds = d'.data.trainIds)
    (hmask : corrected = true → ∀ x ∈ d.sourceToModno, ∀ f ∈ c.files, ∀ g ∈ c'.files, Holds f x.1 → Holds g x.1 →
      (HasImageKey f x.1 (ch! "mask") ↔ HasImageKey g x.1 (ch! "mask"))) :
    ∃ shapes, (∀ x ∈ d.sourceToModno, ∀ f, f ∈ c.files ∨ f ∈ c'.files → Holds f x.1 → layoutShapes f x.1 moduleShape = .ok shapes) ∧
      (∀ y ∈ shapes, ImageKey c d y.1 y.2) ∧ ∀ y ∈ shapes, ImageKey c' d' y.1 y.2 := by
  have hu : ∀ f, f ∈ ({ c with files := c.files ++ c'.files } : DC V).files ↔ f ∈ c.files ∨ f ∈ c'.files := fun f => List.mem_append
  generalize ({ c with files := c.files ++ c'.files } : DC V) = u at hu
  have hkey := fun nm shape => (imageKey_files (nm := nm) (shape := shape) hmod hT hu)
  obtain ⟨sh, k1, k2⟩ := layoutShapes_ready (c := u) (d := d) (moduleShape := moduleShape) (corrected := corrected)
    ((hkey _ _).2 ⟨hr.data, hr'.data⟩) ((hkey _ _).2 ⟨hr.cellId, hr'.cellId⟩) (fun hcor x hx f hf hh => by
      rcases (hu f).1 hf with hf | hf
      · exact hr.raw hcor x hx f hf hh
      · exact hr'.raw hcor x ((hmod x).1 hx) f hf hh) (fun hcor => by
      obtain ⟨h1, h2, h3⟩ := hr.proc hcor
      obtain ⟨-, i2, i3⟩ := hr'.proc hcor
      refine ⟨h1, (hkey _ _).2 ⟨h2, i2⟩, ?_⟩
      have mixed : ∀ x ∈ d.sourceToModno, ∃ f ∈ c.files, Holds f x.1 ∧ ∃ g ∈ c'.files, Holds g x.1 := by
        intro x hx
        obtain ⟨f, hf, hh, -⟩ := hr.hasFile x hx
        obtain ⟨g, hg, hh', -⟩ := hr'.hasFile x ((hmod x).1 hx)
        exact ⟨f, hf, hh, g, hg, hh'⟩
      rcases h3 with h3 | h3 <;> rcases i3 with i3 | i3
      · exact .inl ((hkey _ _).2 ⟨h3, i3⟩)
      · refine .inr (fun x hx => ?_)
        obtain ⟨f, hf, hh, g, hg, hh'⟩ := mixed x hx
        exact absurd ((hmask hcor x hx f hf g hg hh hh').1 (imageKey_has h3 hx hf hh)) (i3 x ((hmod x).1 hx) g hg hh')
      · refine .inr (fun x hx => ?_)
        obtain ⟨f, hf, hh, g, hg, hh'⟩ := mixed x hx
        exact absurd ((hmask hcor x hx f hf g hg hh hh').2 (imageKey_has i3 ((hmod x).1 hx) hg hh')) (h3 x hx f hf hh)
      · refine .inr (fun x hx f hf hh => ?_)
        rcases (hu f).1 hf with hf | hf
        · exact h3 x hx f hf hh
        · exact i3 x ((hmod x).1 hx) f hf hh)
  exact ⟨sh, fun x hx f hf hh => k1 x hx f ((hu f).2 hf) hh, fun y hy => ((hkey _ _).1 (k2 y hy)).1, fun y hy => ((hkey _ _).1 (k2 y hy)).2⟩

theorem alike_cells {c c' : DC V} {d d' : Det V} (hmod : ∀ x, x ∈ d.sourceToModno ↔ x ∈ d'.sourceToModno)
    (hT : d.data.trainIds = d'.data.trainIds) (hF : d.framesPerTrain = d'.framesPerTrain) {key : Str}
    (hfr : ∀ x ∈ d.sourceToModno, ∀ t ∈ d.data.trainIds, ∀ k v, FrameAt c x.1 key t k v ↔ FrameAt c' x.1 key t k v)
    {g g' : Grid (Option V)} (hg : CxiCells c d key g) (hg' : CxiCells c' d' key g') : SameGrid g g' := by
  obtain ⟨a1, a2, a3⟩ := hg
  obtain ⟨b1, b2, b3⟩ := hg'
  have e1 : g.rows = g'.rows := by rw [a1, b1, hT, hF]
  have e2 : g.cols = g'.cols := by rw [a2, b2]
  refine ⟨e1, e2, fun r col hr hcol => ?_⟩
  apply Option.ext
  intro v
  rw [a3 r col v hr hcol, b3 r col v (e1 ▸ hr) (e2 ▸ hcol), ← hT, ← hF]
  constructor
  · rintro ⟨s, t, k, h1, ⟨i, h2, h3⟩, h4⟩
    exact ⟨s, t, k, (hmod _).1 h1, ⟨i, h2, h3⟩, (hfr _ h1 t (List.mem_of_getElem? h2) k v).1 h4⟩
  · rintro ⟨s, t, k, h1, ⟨i, h2, h3⟩, h4⟩
    have h1 := (hmod _).2 h1
    exact ⟨s, t, k, h1, ⟨i, h2, h3⟩, (hfr _ h1 t (List.mem_of_getElem? h2) k v).2 h4⟩

theorem same_layouts {d d' : Det V} : ∀ {shapes : List (Str × List Nat)} {ls ls' : List (Layout V)},
    (∀ y ∈ shapes, ∀ g g', d.collectLayout y.1 y.2 = .ok g → d'.collectLayout y.1 y.2 = .ok g' → SameGrid g g') →
    mapE d.layout shapes = .ok ls → mapE d'.layout shapes = .ok ls' → List.Forall₂ SameLayout ls ls' := by
  intro shapes
  induction shapes with
  | nil =>
    intro ls ls' _ h1 h2
    obtain rfl := Except.ok.inj h1
    obtain rfl := Except.ok.inj h2
    exact .nil
  | cons y shapes ih =>
    intro ls ls' hg h1 h2
    obtain ⟨l, r, a1, a2, rfl⟩ := mapE_cons_ok.1 h1
    obtain ⟨l', r', b1, b2, rfl⟩ := mapE_cons_ok.1 h2
    obtain ⟨n1, s1, g1⟩ := layout_ok a1
    obtain ⟨n2, s2, g2⟩ := layout_ok b1
    exact .cons ⟨n1.trans n2.symm, s1.trans s2.symm, hg y (by simp) _ _ g1 g2⟩ (ih (fun y hy => hg y (by simp [hy])) a2 b2)

/-- Virtual CXI files depend on the modules, the trains and the frames in them only. -/
theorem cxi_alike {kind : Option Str} {c c' : DC V} {name : Option Str} {modules : Option (List Nat)} {minModules : Int}
    {d d' : Det V} (hd : Det.init kind c name modules minModules = .ok d) (hd' : Det.init kind c' name modules minModules = .ok d')
    {num : V → Nat} {moduleShape dataShape : List Nat} {corrected : Bool}
    (hr : CxiReady c d num moduleShape dataShape corrected) (hr' : CxiReady c' d' num moduleShape dataShape corrected)
    (hmod : ∀ x, x ∈ d.sourceToModno ↔ x ∈ d'.sourceToModno) (hT : d.data.trainIds = d'.data.trainIds)
    (hF : d.framesPerTrain = d'.framesPerTrain)
    (hfr : ∀ x ∈ d.sourceToModno, ∀ nm ∈ [ch! "data", ch! "gain", ch! "mask", ch! "cellId", ch! "pulseId"],
      (∀ f ∈ c.files, Holds f x.1 → HasImageKey f x.1 nm) → ∀ t ∈ d.data.trainIds, ∀ k v,
      FrameAt c x.1 (ch! "image." ++ nm) t k v ↔ FrameAt c' x.1 (ch! "image." ++ nm) t k v)
    (hmask : corrected = true → ∀ x ∈ d.sourceToModno, ∀ f ∈ c.files, ∀ g ∈ c'.files, Holds f x.1 → Holds g x.1 →
      (HasImageKey f x.1 (ch! "mask") ↔ HasImageKey g x.1 (ch! "mask"))) :
    (∃ x x', d.writeVirtualCxi num moduleShape = .ok x ∧ d'.writeVirtualCxi num moduleShape = .ok x' ∧ SameCxi x x') ∨
    (d.writeVirtualCxi num moduleShape = .error .generic ∧ d'.writeVirtualCxi num moduleShape = .error .generic) := by
  obtain ⟨p1, p2⟩ := cxi_pulse_ids_partial hd hr.noConflict hr.plain hr.images hr.inRange num hr.pulses hr.low
  obtain ⟨q1, q2⟩ := cxi_pulse_ids_partial hd' hr'.noConflict hr'.plain hr'.images hr'.inRange num hr'.pulses hr'.low
  have hpq : ∀ ids, d.collectPulseIds num = .ok ids ↔ d'.collectPulseIds num = .ok ids := by
    intro ids
    rw [p1, q1, ← hT, ← hF]
    refine and_congr_right (fun _ => forall_congr' fun r => forall_congr' fun t => forall_congr' fun k => imp_congr_right fun hrow => ?_)
    have ht : t ∈ d.data.trainIds := by
      obtain ⟨i, hi, -⟩ := hrow
      exact List.mem_of_getElem? hi
    have hx : ∀ s m, (s, m) ∈ d.sourceToModno → ∀ v, FrameAt c s (ch! "image.pulseId") t k v ↔ FrameAt c' s (ch! "image.pulseId") t k v := by
      intro s m hs v
      refine hfr (s, m) hs (ch! "pulseId") (by simp) (fun f hf hh => ?_) t ht k v
      obtain ⟨-, -, ds, -, hds, -⟩ := (hr.pulses (s, m) hs f hf hh).2.2.1.data
      exact ⟨ds, hds⟩
    constructor
    · rintro ⟨⟨s, m, v, h1, h2⟩, h3⟩
      exact ⟨⟨s, m, v, (hmod _).1 h1, (hx s m h1 v).1 h2⟩, fun s m v h1 h2 => h3 s m v ((hmod _).2 h1) ((hx s m ((hmod _).2 h1) v).2 h2)⟩
    · rintro ⟨⟨s, m, v, h1, h2⟩, h3⟩
      exact ⟨⟨s, m, v, (hmod _).2 h1, (hx s m ((hmod _).2 h1) v).2 h2⟩, fun s m v h1 h2 => h3 s m v ((hmod _).1 h1) ((hx s m h1 v).1 h2)⟩
  cases hp : d.collectPulseIds num with
  | error e =>
    obtain rfl := p2 e hp
    cases hq : d'.collectPulseIds num with
    | ok ids => rw [(hpq ids).2 hq] at hp; simp at hp
    | error e' =>
      obtain rfl := q2 e' hq
      right
      unfold Det.writeVirtualCxi
      rw [hp, hq]
      exact ⟨rfl, rfl⟩
  | ok ids =>
    left
    have hq := (hpq ids).1 hp
    obtain ⟨x, hx⟩ := cxi_written hd hr.noConflict hr.plain hr.images hr.inRange hp hr.shape
      (fun x hx => hr.hasFile x (List.mem_of_mem_head? hx)) hr.data hr.cellId corrected hr.raw hr.proc
    obtain ⟨x', hx'⟩ := cxi_written hd' hr'.noConflict hr'.plain hr'.images hr'.inRange hq hr'.shape
      (fun x hx => hr'.hasFile x (List.mem_of_mem_head? hx)) hr'.data hr'.cellId corrected hr'.raw hr'.proc
    refine ⟨x, x', hx, hx', ?_⟩
    obtain ⟨s, m, rest, f, fs, shapes, l, ls, a1, a2, a3, a4, a5, a6, a7, a8, a9, a10⟩ := writeVirtualCxi_ok hx
    obtain ⟨s', m', rest', f', fs', shapes', l', ls', b1, b2, b3, b4, b5, b6, b7, b8, b9, b10⟩ := writeVirtualCxi_ok hx'
    obtain ⟨sh, k1, k2, k3⟩ := layoutShapes_alike hr hr' hmod hT hmask
    have hfile : ∀ {d : Det V} {c : DC V} {s f fs}, (∀ f ∈ d.data.files, f ∈ c.files) → d.data.sourceIndex s = f :: fs →
        f ∈ c.files ∧ Holds f s := by
      intro d c s f fs hsub hsi
      have := mem_sourceIndex.1 (show f ∈ d.data.sourceIndex s by rw [hsi]; simp)
      exact ⟨hsub f this.1, this.2⟩
    obtain ⟨f1, f2⟩ := hfile (init_files hd).2.2 a3
    obtain ⟨f3, f4⟩ := hfile (init_files hd').2.2 b3
    have e1 := k1 (s, m) (by rw [a2]; simp) f (.inl f1) f2
    have e2 := k1 (s', m') ((hmod _).2 (by rw [b2]; simp)) f' (.inr f3) f4
    simp only at e1 e2
    rw [a4] at e1
    rw [b4] at e2
    obtain rfl := Except.ok.inj e1
    obtain rfl := Except.ok.inj e2
    have hlay : List.Forall₂ SameLayout x.layouts x'.layouts := by
      refine same_layouts (fun y hy g g' hg hg' => ?_) a5 b5
      have hy' : y.1 ∈ [ch! "data", ch! "gain", ch! "mask", ch! "cellId", ch! "pulseId"] := by
        have := ((layoutShapes_names a4).1 y.1).1 (List.mem_map.2 ⟨y, hy, rfl⟩)
        simp only [List.mem_cons, List.not_mem_nil, or_false]
        tauto
      have i1 := k2 y hy
      have i2 := k3 y hy
      exact alike_cells hmod hT hF (fun x hx t ht k v => hfr x hx y.1 hy' (fun f hf hh => imageKey_has i1 hx hf hh) t ht k v)
        ((collectLayout_cells hd hr.noConflict hr.plain hr.images hr.inRange (fun z hz => (i1 z hz).1)).1 g hg)
        ((collectLayout_cells hd' hr'.noConflict hr'.plain hr'.images hr'.inRange (fun z hz => (i2 z hz).1)).1 g' hg')
    have hids : x.pulseIds = x'.pulseIds := by
      rw [a1] at hp; rw [b1] at hq
      exact (Except.ok.inj hp).trans (Except.ok.inj hq).symm
    have htid : d.tidsPerFrame = d'.tidsPerFrame := by
      unfold Det.tidsPerFrame; rw [hT, hF]
    refine ⟨by rw [a9, b9, hids, htid], hids, by rw [a8, b8, htid], ?_, ?_, hlay⟩
    · rw [a6, b6] at hlay
      obtain ⟨hll, -⟩ := List.forall₂_cons.1 hlay
      rw [hll.rowShape, b7] at a7
      exact (Except.ok.inj a7).symm
    · obtain ⟨-, -, -, m1, m2⟩ := cxi_file hd hr.noConflict hr.plain hr.images hr.inRange hx
      obtain ⟨-, -, -, m3, m4⟩ := cxi_file hd' hr'.noConflict hr'.plain hr'.images hr'.inRange hx'
      refine eq_of_pairwise_lt m1 m3 (fun a => ?_)
      rw [m2, m4]
      simp only [hmod]

/-- C133. The virtual CXI file made of the files in another order is the same, or both attempts fail, because of pulse IDs. -/
theorem cxi_files_order {kind : Option Str} {c c' : DC V} {name : Option Str} {modules : Option (List Nat)} {minModules : Int}
    {d d' : Det V} (h : SameContents c c') (hk : SameKeys c.files) (hl : ListsKeys c.files)
    (hd : Det.init kind c name modules minModules = .ok d) (hd' : Det.init kind c' name modules minModules = .ok d')
    {num : V → Nat} {moduleShape dataShape : List Nat} {corrected : Bool}
    (hr : CxiReady c d num moduleShape dataShape corrected) :
    (∃ x x', d.writeVirtualCxi num moduleShape = .ok x ∧ d'.writeVirtualCxi num moduleShape = .ok x' ∧ SameCxi x x') ∨
    (d.writeVirtualCxi num moduleShape = .error .generic ∧ d'.writeVirtualCxi num moduleShape = .error .generic) := by
  obtain ⟨d2, hd2, hsame⟩ := detector_files_order h hk hl hd
  rw [hd'] at hd2
  obtain rfl := Except.ok.inj hd2
  refine cxi_alike hd hd' hr (same_cxiReady h hsame hr) hsame.modules hsame.data.trains hsame.frames
    (fun x _ nm _ _ t _ k v => same_frameAt h) ?_
  intro hcor x hx f hf g hg hh hh'
  rcases (hr.proc hcor).2.2 with hm | hm
  · exact ⟨fun _ => imageKey_has hm hx (h.files.mem_iff.2 hg) hh', fun _ => imageKey_has hm hx hf hh⟩
  · exact ⟨fun h1 => absurd h1 (hm x hx f hf hh), fun h1 => absurd h1 (hm x hx g (h.files.mem_iff.2 hg) hh')⟩

end KD

namespace KD
open Spec

/-! ### Examples -/

set_option maxRecDepth 20000 in
theorem exDet_ready : CxiReady exDetData exDet id [2, 2] [1, 2, 2] false := by
  obtain ⟨h1, h2, h3, h4, h5, -⟩ := exDet_cxi
  refine ⟨exDet_hasImages.1, exDet_valid.1, h1, exDet_hasImages.2, fun x hx => followsIn_of_valid (h2 x hx), ?_, ?_, by simp, h3, h4, fun _ => h5, by simp⟩
  · rintro x hx t k v ⟨f, hf, hh, hv⟩
    have htr : ∀ f ∈ exDetData.files, f.trainIds = [10, 11, 12] := by decide
    by_cases ht : t ∈ f.trainIds
    · rw [htr f hf] at ht
      have : ∀ f ∈ exDetData.files, ∀ x ∈ exDet.sourceToModno, ∀ t ∈ [10, 11, 12],
          ∀ v ∈ fileEntries f true x.1 (ch! "image.pulseId") t, id v < 9999 := by decide
      exact this f hf x hx t ht v (List.mem_of_getElem? hv)
    · rw [fileEntries_notMem ht] at hv
      simp at hv
  · unfold Holds; decide

/-- The example meets the hypotheses: the file made of the files in the other order has the same entries, here those of module 3. -/
example : ∃ d' x', Det.init (some (ch! "_AGIPD1M")) exDetRev none none 1 = .ok d' ∧ d'.sourceToModno ≠ exDet.sourceToModno ∧
    d'.writeVirtualCxi id [2, 2] = .ok x' ∧ x'.trainIds = [10, 10, 11, 11, 12, 12] ∧
    ∃ l ∈ x'.layouts, l.name = ch! "data" ∧ (List.range 6).map (fun r => l.grid.cell r 3) =
      [some 100, some 101, some 110, some 111, none, none] := by
  obtain ⟨hk, hl⟩ := exDetData_keys
  obtain ⟨d', h1, h2⟩ := detector_files_order exDetRev_same hk hl exDet_init
  obtain ⟨w1, -, -, w4, w5⟩ := exDet_write
  rcases cxi_files_order exDetRev_same hk hl exDet_init h1 exDet_ready with ⟨x, x', h3, h4, h5⟩ | ⟨h3, -⟩
  · rw [h3] at w1 w4 w5
    simp only [Except.map, Except.ok.injEq, Prod.mk.injEq] at w1 w4 w5
    refine ⟨d', x', h1, ?_, h4, by rw [← h5.trainIds]; exact w1.1, ?_⟩
    · have : (identifySources exDetRev (ch! "X_AGIPD1M-1") none) = .ok [(exSource '0', 0), (exSource '3', 3)] := by decide
      have h3 := (init_ok h1).2.2.1
      rw [← h2.name, show exDet.name = ch! "X_AGIPD1M-1" from rfl, this] at h3
      rw [← Except.ok.inj h3]
      decide
    · have h6 := h5.layouts
      generalize x.layouts = ls at h6 w4 w5
      generalize x'.layouts = ls' at h6
      cases h6 with
      | nil => simp at w4
      | @cons l l' ls ls' hll _ =>
        simp only [List.map_cons, List.cons.injEq, Prod.mk.injEq] at w4 w5
        obtain ⟨⟨n1, -, n3, n4⟩, -⟩ := w4
        refine ⟨l', by simp, by rw [← hll.name, n1], ?_⟩
        rw [← w5.1]
        refine List.map_congr_left (fun r hr => ?_)
        rw [List.mem_range] at hr
        exact (hll.grid.cells r 3 (by omega) (by omega)).symm
  · rw [h3] at w1
    simp [Except.map] at w1

set_option maxRecDepth 20000 in
/-- C133. The order matters if some module has no data in the trains of the detector object: no file is written if it comes first. -/
theorem cxi_order_wrong :
    let a := exModule '1' [10] [0] [2] [5, 7] [100, 101]
    let b := exModule '2' [11] [0] [2] [5, 7] [110, 111]
    let e := exModule '3' [11] [0] [2] [5, 7] [120, 121]
    let write := fun files => (Det.init none (DC.mk files
        [(exSource '1', none), (exSource '2', none), (exSource '3', none)] [10, 11] true : DC Nat) none none 2).map
      (fun d => (d.writeVirtualCxi id [2, 2]).map (fun x => x.pulseIds))
    write [a, b, e] = .ok (.error .index) ∧ write [b, e, a] = .ok (.ok [5, 7]) := ⟨by decide, by decide⟩

end KD
