/-
C149: virtual CXI files of copies.
-/
import Verif.Props.DataCxi
import Verif.Props.DetCopy

namespace KD
open Spec

variable {V : Type}

/-- The keys of a file include those of its datasets of images. -/
theorem key_of_imageKey {f : FileAccess V} {s nm : Str} {ks : List Str} (hs : s ∈ f.instrumentSources) (hn : s ∉ f.controlSources)
    (hnm : nm = ch! "gain" ∨ nm = ch! "mask") (hk : HasImageKey f s nm) (hks : f.getKeys s = .ok ks) : ch! "image." ++ nm ∈ ks := by
  obtain ⟨ds, hds⟩ := hk
  unfold FileAccess.dataset need at hds
  have hpath : h5path (ch! "/" ++ ch! "INSTRUMENT" ++ ch! "/" ++ s ++ ch! "/" ++ replaceCh '.' '/' (ch! "image." ++ nm)) =
      h5path (ch! "/INSTRUMENT/" ++ s) ++ [ch! "image", nm] := by
    have : ch! "/" ++ ch! "INSTRUMENT" ++ ch! "/" ++ s ++ ch! "/" ++ replaceCh '.' '/' (ch! "image." ++ nm) =
        (ch! "/INSTRUMENT/" ++ s) ++ '/' :: replaceCh '.' '/' (ch! "image." ++ nm) := by simp
    rw [this, h5path_append]
    congr 1
    rcases hnm with rfl | rfl <;> decide
  rw [hpath] at hds
  have hmem : ∃ ds, (h5path (ch! "/INSTRUMENT/" ++ s) ++ [ch! "image", nm], ds) ∈ f.file.datasets := by
    cases hg : f.file.datasets.get? (h5path (ch! "/INSTRUMENT/" ++ s) ++ [ch! "image", nm]) with
    | none => rw [hg] at hds; simp at hds
    | some ds' => exact ⟨ds', Dict.mem_of_get? hg⟩
  obtain ⟨ds', hmem⟩ := hmem
  unfold FileAccess.getKeys FileAccess.readKeys at hks
  rw [if_neg hn, if_pos hs] at hks
  cases hv : visitDatasets f.file (h5path (ch! "/INSTRUMENT/" ++ s)) with
  | error e => rw [hv] at hks; simp at hks
  | ok names =>
    rw [hv] at hks
    obtain rfl := Except.ok.inj hks
    have hin : joinCh '/' [ch! "image", nm] ∈ names := by
      unfold visitDatasets at hv
      simp only at hv
      split at hv
      · simp at hv
      · obtain rfl := Except.ok.inj hv
        refine List.mem_filterMap.2 ⟨_, hmem, ?_⟩
        rw [if_pos]
        · simp
        · simp
    rw [List.mem_dedup]
    refine List.mem_map.2 ⟨_, hin, ?_⟩
    rcases hnm with rfl | rfl <;> decide

/-- In a copy there are images with gains or masks only if there are in the original. -/
theorem copy_imageKey {c e : DC V} (hc : Copyable c) (h : CopyOf c e) {s nm : Str} (hF : HasField c true s (ch! "image.data"))
    (hnm : nm = ch! "gain" ∨ nm = ch! "mask") {g : FileAccess V} (hg : g ∈ e.files) (hgh : Holds g s) (hk : HasImageKey g s nm) :
    (∃ f ∈ c.files, Holds f s ∧ HasImageKey f s nm) := by
  rcases copy_cases hc h with rfl | ⟨d, f, hd, hcd, hf, rfl⟩
  · exact ⟨g, hg, hgh, hk⟩
  · have : g = f := by simpa [DC.single] using hg
    subst this
    obtain ⟨-, -, k3, k4, k5, -⟩ := copies_same hc hd
    obtain ⟨hFd, -⟩ := copy_images hc hd hF
    obtain ⟨hs, hn⟩ : s ∈ g.instrumentSources ∧ s ∉ g.controlSources := (hf.fields _ _ _ hFd).1.category
    obtain ⟨ks, hk1, hk2⟩ := hf.keys s (field_available hFd).1
    have hav := (k5 s _).1 ((hk2 _).1 (key_of_imageKey hs hn hnm hk hk1))
    have hFn : HasField c true s (ch! "image." ++ nm) := ⟨hF.1, hav.2⟩
    obtain ⟨-, f, hff, hh⟩ := mem_allSources.1 (field_available hF).1
    obtain ⟨-, -, ds, -, hds, -⟩ := (hc.writable.valid _ _ _ hFn f hff hh).2.2.1.data
    exact ⟨f, hff, hh, ds, hds⟩

theorem copy_follows {kind : Option Str} {c e : DC V} {name : Option Str} {modules : Option (List Nat)} {min : Int} {d d' : Det V}
    (hc : Copyable c) (h : CopyOf c e) (hd : Det.init kind c name modules min = .ok d) (hd' : Det.init kind e name modules min = .ok d')
    {s k : Str} (hF : HasField c true s k) (hv : FollowsIn c d.data.trainIds true s k) : FollowsIn e d'.data.trainIds true s k := by
  rcases copy_cases hc h with rfl | ⟨d0, f, h0, hc0, hf, rfl⟩
  · rw [hd] at hd'
    obtain rfl := Except.ok.inj hd'
    exact hv
  · refine validIn_follows (fun g hg _ => ?_) _
    obtain rfl := mem_single.1 hg
    exact (hf.fields true s k (copy_images hc h0 hF).1).1

/-- A copy of files fit for a virtual CXI file is fit for one. -/
theorem copy_ready {kind : Option Str} {c e : DC V} {name : Option Str} {modules : Option (List Nat)} {min : Int} {d d' : Det V}
    (hc : Copyable c) (h : CopyOf c e) (hd : Det.init kind c name modules min = .ok d) (hd' : Det.init kind e name modules min = .ok d')
    (hmem : ∀ x, x ∈ d'.sourceToModno ↔ x ∈ d.sourceToModno) (htr : d'.data.trainIds = d.data.trainIds)
    {num : V → Nat} {moduleShape dataShape : List Nat} {corrected : Bool} (hr : CxiReady c d num moduleShape dataShape corrected)
    (hF : ∀ x ∈ d.sourceToModno, ∀ nm ∈ [ch! "data", ch! "gain", ch! "mask", ch! "cellId", ch! "pulseId"],
      (∀ f ∈ c.files, Holds f x.1 → HasImageKey f x.1 nm) → HasField c true x.1 (ch! "image." ++ nm)) :
    CxiReady e d' num moduleShape dataShape corrected := by
  obtain ⟨k1, k2, -⟩ := copies_same hc h
  have hsame := copy_sameData hc h
  have hcn := hc.writable.noConflict
  have hen := k1.writable.noConflict
  have hdata : ∀ x ∈ d.sourceToModno, HasField c true x.1 (ch! "image.data") := fun x hx =>
    hF x hx (ch! "data") (by simp) (fun f hf hh => imageKey_has hr.data hx hf hh)
  have hpulse : ∀ x ∈ d.sourceToModno, HasField c true x.1 (ch! "image.pulseId") := fun x hx =>
    hF x hx (ch! "pulseId") (by simp) (fun f hf hh => by
      obtain ⟨-, -, ds, -, hds, -⟩ := (hr.pulses x hx f hf hh).2.2.1.data
      exact ⟨ds, hds⟩)
  have himage : ∀ nm ∈ [ch! "data", ch! "gain", ch! "mask", ch! "cellId", ch! "pulseId"], ∀ shape, ImageKey c d nm shape →
      ImageKey e d' nm shape := by
    intro nm hnm shape hi x hx
    have hx' := (hmem x).1 hx
    have hFx := hF x hx' nm hnm (fun f hf hh => imageKey_has hi hx' hf hh)
    refine ⟨copy_follows hc h hd hd' hFx (hi x hx').1, ?_⟩
    exact copy_shape hc h (b := true) (P := fun sh => sh.prod = shape.prod) hFx (hi x hx').2
  refine ⟨hen, fun x hx => hr.plain x ((hmem x).1 hx), fun x hx => hr.inRange x ((hmem x).1 hx), ?_, ?_, ?_, ?_, hr.shape,
    himage _ (by simp) _ hr.data, himage _ (by simp) _ hr.cellId, ?_, ?_⟩
  · exact fun x hx => copy_hasImages hc h (hdata x ((hmem x).1 hx)) (hr.images x ((hmem x).1 hx))
  · exact fun x hx => copy_follows hc h hd hd' (hpulse x ((hmem x).1 hx)) (hr.pulses x ((hmem x).1 hx))
  · intro x hx t k v hv
    have hx' := (hmem x).1 hx
    refine hr.low x hx' t k v ?_
    rcases copy_cases hc h with rfl | ⟨d0, f, hd0, hcd, hf, rfl⟩
    · exact hv
    · have ht : t ∈ c.trainIds := by
        obtain ⟨g, hg, -, hgv⟩ := hv
        have : g = f := by simpa [DC.single] using hg
        subst this
        rw [← (copies_same hc hd0).2.1, ← hf.trains]
        by_contra hn
        rw [fileEntries_notMem hn] at hgv
        simp at hgv
      rw [frameAt_holds hen] at hv
      rw [frameAt_holds hcn]
      simpa only [hsame.entries true x.1 _ (hpulse x hx') t ht] using hv
  · intro x hx
    have hx' := (hmem x).1 hx
    rcases copy_cases hc h with rfl | ⟨d0, f, hd0, hcd, hf, rfl⟩
    · rw [htr]; exact hr.hasFile x hx'
    · obtain ⟨-, -, -, t, ht, -⟩ := hr.hasFile x hx'
      obtain ⟨-, m2, -, m4, -⟩ := copies_same hc hd0
      refine ⟨f, by simp [DC.single], Or.inr ((hf.instrument x.1).2 ((m4 x.1).2 (hdata x hx').1)), t, by rw [htr]; exact ht, ?_⟩
      rw [hf.trains, m2]
      exact (init_data hd hr.plain).2.2.2.1 t ht
  · intro hcor x hx g hg hh
    have hx' := (hmem x).1 hx
    refine ⟨fun hk => ?_, ?_⟩
    · obtain ⟨f, hf, hfh, hfk⟩ := copy_imageKey hc h (hdata x hx') (Or.inl rfl) hg hh hk
      exact (hr.raw hcor x hx' f hf hfh).1 hfk
    · exact copy_shape hc h (b := true) (P := fun sh => sh = dataShape) (hdata x hx')
        (fun f hf hfh ds hds => (hr.raw hcor x hx' f hf hfh).2 ds hds) g hg hh
  · intro hcor
    obtain ⟨h1, h2, h3⟩ := hr.proc hcor
    refine ⟨h1, himage _ (by simp) _ h2, ?_⟩
    rcases h3 with h3 | h3
    · exact Or.inl (himage _ (by simp) _ h3)
    · refine Or.inr (fun x hx g hg hh hk => ?_)
      have hx' := (hmem x).1 hx
      obtain ⟨f, hf, hfh, hfk⟩ := copy_imageKey hc h (hdata x hx') (Or.inr rfl) hg hh hk
      exact h3 x hx' f hf hfh hfk

/-- C149. The detector interface can be made from a copy, and a virtual CXI file from it: it has the same contents as the one made
from the original, or neither can be made, because of pulse IDs which disagree. -/
theorem copy_cxi {kind : Option Str} {c e : DC V} {name : Option Str} {modules : Option (List Nat)} {min : Int} {d : Det V}
    (hc : Copyable c) (h : CopyOf c e) (hd : Det.init kind c name modules min = .ok d) (hmin : 1 ≤ min)
    {num : V → Nat} {moduleShape dataShape : List Nat} {corrected : Bool} (hr : CxiReady c d num moduleShape dataShape corrected)
    (hF : ∀ x ∈ d.sourceToModno, ∀ nm ∈ [ch! "data", ch! "gain", ch! "mask", ch! "cellId", ch! "pulseId"],
      (∀ f ∈ c.files, Holds f x.1 → HasImageKey f x.1 nm) → HasField c true x.1 (ch! "image." ++ nm)) :
    ∃ d', Det.init kind e name modules min = .ok d' ∧
      ((∃ x x', d.writeVirtualCxi num moduleShape = .ok x ∧ d'.writeVirtualCxi num moduleShape = .ok x' ∧ SameCxi x x') ∨
      (d.writeVirtualCxi num moduleShape = .error .generic ∧ d'.writeVirtualCxi num moduleShape = .error .generic)) := by
  have hdata : ∀ x ∈ d.sourceToModno, HasField c true x.1 (ch! "image.data") := fun x hx =>
    hF x hx (ch! "data") (by simp) (fun f hf hh => imageKey_has hr.data hx hf hh)
  have hsame := copy_sameData hc h
  have hen := (copies_same hc h).1.writable.noConflict
  have hie : ∀ x ∈ d.sourceToModno, HasImages e x.1 := fun x hx => copy_hasImages hc h (hdata x hx) (hr.images x hx)
  obtain ⟨d', hd', -, hmem, htr, -⟩ := data_detector hsame hr.noConflict hen hd hmin hr.plain hdata hr.images hie
  have hr' := copy_ready hc h hd hd' hmem htr hr hF
  refine ⟨d', hd', data_cxi hsame hd hd' hmin hr hr' hF hie ?_⟩
  intro hcor x hx f hf g hg hfh hgh
  obtain ⟨-, -, h3⟩ := hr.proc hcor
  constructor
  · intro hk
    rcases h3 with h3 | h3
    · have hFm := hF x hx (ch! "mask") (by simp) (fun f hf hh => imageKey_has h3 hx hf hh)
      obtain ⟨-, -, ds, -, hds, -⟩ := ((copy_images hc h hFm).2.2.1 g hg hgh).2.2.1.data
      exact ⟨ds, hds⟩
    · exact absurd hk (h3 x hx f hf hfh)
  · intro hk
    rcases h3 with h3 | h3
    · exact imageKey_has h3 hx hf hfh
    · obtain ⟨f', hf', hfh', hfk'⟩ := copy_imageKey hc h (hdata x hx) (Or.inr rfl) hg hgh hk
      exact absurd hfk' (h3 x hx f' hf' hfh')

set_option synthInstance.maxSize 512 in
/-- The example meets the hypotheses, also for its copies (there are some, see Props/DetCopy.lean): their CXI files have the frames of
module 3 in trains 10 and 11, and none in train 12. -/
example : ∀ e, CopyOf exDetData e → ∃ d x, Det.init (some (ch! "_AGIPD1M")) e (some (ch! "X_AGIPD1M-1")) none 1 = .ok d ∧
    d.writeVirtualCxi id [2, 2] = .ok x ∧ x.trainIds = [10, 10, 11, 11, 12, 12] ∧ x.pulseIds = [5, 7, 5, 7, 5, 7] ∧
    ∃ l ∈ x.layouts, l.name = ch! "data" ∧ (List.range 6).map (fun r => l.grid.cell r 3) =
      [some 100, some 101, some 110, some 111, none, none] := by
  intro e he
  obtain ⟨hc, -⟩ := exDet_copyable
  have hF : ∀ x ∈ exDet.sourceToModno, ∀ nm ∈ [ch! "data", ch! "gain", ch! "mask", ch! "cellId", ch! "pulseId"],
      (∀ f ∈ exDetData.files, Holds f x.1 → HasImageKey f x.1 nm) → HasField exDetData true x.1 (ch! "image." ++ nm) := by
    intro x hx nm hnm hk
    have h1 : ∀ x ∈ exDet.sourceToModno, x.1 ∈ exDetData.instrumentSources ∧
        exDetData.keysForSource x.1 = .ok [ch! "image.pulseId", ch! "image.data", ch! "image.cellId"] := by decide
    have h2 : ∀ x ∈ exDet.sourceToModno, ∃ f ∈ exDetData.files, Holds f x.1 ∧
        ∀ nm ∈ [ch! "gain", ch! "mask"], (f.dataset (ch! "INSTRUMENT") x.1 (ch! "image." ++ nm)).toBool = false := by
      unfold Holds; decide
    refine ⟨(h1 x hx).1, _, (h1 x hx).2, ?_⟩
    obtain ⟨f, hf, hh, hno⟩ := h2 x hx
    obtain ⟨ds, hds⟩ := hk f hf hh
    simp only [List.mem_cons, List.not_mem_nil, or_false] at hnm
    rcases hnm with rfl | rfl | rfl | rfl | rfl
    · decide
    · have := hno (ch! "gain") (by simp); rw [hds] at this; simp [Except.toBool] at this
    · have := hno (ch! "mask") (by simp); rw [hds] at this; simp [Except.toBool] at this
    · decide
    · decide
  obtain ⟨d, hd, hx⟩ := copy_cxi hc he exDet_init_named (by decide) exDet_ready hF
  have hex : (exDet.writeVirtualCxi id [2, 2]).map (fun x => (x.trainIds, x.pulseIds, (x.layouts.take 1).map fun l =>
      (l.name, l.grid.rows, l.grid.cols, (List.range 6).map (fun r => l.grid.cell r 3)))) = .ok ([10, 10, 11, 11, 12, 12], [5, 7, 5, 7, 5, 7],
        [(ch! "data", 6, 16, [some 100, some 101, some 110, some 111, none, none])]) := by decide +kernel
  rcases hx with ⟨x, x', h1, h2, h3⟩ | ⟨h1, -⟩
  · rw [h1] at hex
    have hex := Except.ok.inj hex
    simp only [Prod.mk.injEq] at hex
    obtain ⟨e1, e2, e3⟩ := hex
    refine ⟨d, x', hd, h2, by rw [← h3.trainIds, e1], by rw [← h3.pulseIds, e2], ?_⟩
    have hl := h3.layouts
    cases hxl : x.layouts with
    | nil => rw [hxl] at e3; simp at e3
    | cons l ls =>
      rw [hxl] at e3 hl
      cases hxl' : x'.layouts with
      | nil => rw [hxl'] at hl; cases hl
      | cons l' ls' =>
        rw [hxl'] at hl
        cases hl with
        | cons hll _ =>
          simp only [List.take_succ_cons, List.take_zero, List.map_cons, List.map_nil, List.cons.injEq, Prod.mk.injEq, and_true] at e3
          obtain ⟨f1, f2, f3, f4⟩ := e3
          refine ⟨l', by simp, by rw [← hll.name, f1], ?_⟩
          rw [← f4]
          refine List.map_congr_left (fun r hr => ?_)
          exact (hll.grid.cells r 3 (by rw [f2]; exact List.mem_range.1 hr) (by rw [f3]; decide)).symm
  · rw [h1] at hex
    exact absurd hex (by simp [Except.map])

end KD
