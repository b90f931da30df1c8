/-
C140: virtual CXI files do not depend on how the detector data is spread over files.
-/
import Verif.Props.DataDetector
import Verif.Props.CxiFileOrder

set_option linter.unusedSimpArgs false

namespace KD
open Spec

variable {V : Type}

theorem frameAt_holds {c : DC V} {s key : Str} (hc : NoConflict c.files) {t k : Nat} {v : V} :
    FrameAt c s key t k v ↔ ∃ es, HoldsEntries c true s key t es ∧ es[k]? = some v := by
  constructor
  · rintro ⟨f, hf, hh, hv⟩
    have htf : t ∈ f.trainIds := by
      by_contra hn
      rw [fileEntries_notMem hn] at hv
      simp at hv
    exact ⟨_, ⟨fun g hg hhg htg => by rw [same_file hc hg hf hhg hh htg htf], fun hn => absurd ⟨f, hf, hh, htf⟩ hn⟩, hv⟩
  · rintro ⟨es, he, hv⟩
    have hcov : Covered c s t := by
      by_contra hn
      rw [he.2 hn] at hv
      simp at hv
    obtain ⟨f, hf, hh, htf⟩ := hcov
    exact ⟨f, hf, hh, by rw [he.1 f hf hh htf]; exact hv⟩

/-- C140. Writing a virtual CXI file gives the same contents however the detector data is spread over files, or fails for both, because
of pulse IDs. -/
theorem data_cxi {kind : Option Str} {c e : DC V} {name : Option Str} {modules : Option (List Nat)} {min : Int} {d d' : Det V}
    (h : SameData c e) (hd : Det.init kind c name modules min = .ok d) (hd' : Det.init kind e name modules min = .ok d') (hmin : 1 ≤ min)
    {num : V → Nat} {moduleShape dataShape : List Nat} {corrected : Bool}
    (hr : CxiReady c d num moduleShape dataShape corrected) (hr' : CxiReady e d' num moduleShape dataShape corrected)
    (hF : ∀ x ∈ d.sourceToModno, ∀ nm ∈ [ch! "data", ch! "gain", ch! "mask", ch! "cellId", ch! "pulseId"],
      (∀ f ∈ c.files, Holds f x.1 → HasImageKey f x.1 nm) → HasField c true x.1 (ch! "image." ++ nm))
    (hi : ∀ x ∈ d.sourceToModno, HasImages e x.1)
    (hmask : corrected = true → ∀ x ∈ d.sourceToModno, ∀ f ∈ c.files, ∀ g ∈ e.files, Holds f x.1 → Holds g x.1 →
      (HasImageKey f x.1 (ch! "mask") ↔ HasImageKey g x.1 (ch! "mask"))) :
    (∃ x x', d.writeVirtualCxi num moduleShape = .ok x ∧ d'.writeVirtualCxi num moduleShape = .ok x' ∧ SameCxi x x') ∨
    (d.writeVirtualCxi num moduleShape = .error .generic ∧ d'.writeVirtualCxi num moduleShape = .error .generic) := by
  have hc := hr.noConflict
  have he := hr'.noConflict
  obtain ⟨d'', hd'', -, hmem, htr, hfr⟩ := data_detector h hc he hd hmin hr.plain
    (fun x hx => hF x hx (ch! "data") (by simp) (fun f hf hh => imageKey_has hr.data hx hf hh)) hr.images hi
  rw [hd'] at hd''
  obtain rfl := Except.ok.inj hd''
  refine cxi_alike hd hd' hr hr' (fun x => (hmem x).symm) htr.symm hfr.symm (fun x hx nm hnm hk t ht k v => ?_) hmask
  rw [frameAt_holds hc, frameAt_holds he]
  have htc := (init_data hd hr.plain).2.2.2.1 t ht
  simp only [h.entries true x.1 _ (hF x hx nm hnm hk) t htc]

/-! ### A case -/

theorem exSplit_data : ∀ x ∈ exDet.sourceToModno, ∀ f ∈ exDetSplit.files, Holds f x.1 →
    ∃ n ids rows, (n = '0' ∨ n = '3') ∧ x.1 = exSource n ∧
      f.dataset (ch! "INSTRUMENT") (exSource n) (ch! "image.data") = .ok ⟨rows, [1, 2, 2], 0⟩ ∧
      f.dataset (ch! "INSTRUMENT") (exSource n) (ch! "image.cellId") = .ok ⟨ids, [], 0⟩ := by
  intro x hx f hf hh
  simp only [exDetSplit, List.mem_cons, List.not_mem_nil, or_false] at hf
  simp only [exDet, List.mem_cons, List.not_mem_nil, or_false] at hx
  rcases hf with rfl | rfl | rfl | rfl <;> rcases hx with rfl | rfl <;>
    first
      | (exfalso; revert hh; rintro (h | h) <;> revert h <;> decide)
      | exact ⟨_, _, _, by decide, rfl, (exModule_data (by decide)).1, (exModule_data (by decide)).2.2⟩

set_option maxRecDepth 20000 in
theorem exSplit_ready : CxiReady exDetSplit exSplitDet id [2, 2] [1, 2, 2] false := by
  refine ⟨exSplit_noConflict, exDet_valid.1, exDet_cxi.1, exSplit_hasImages,
    fun x hx => followsIn_of_valid (exSplit_valid (.inr (.inl rfl)) x hx), ?_, ?_, by simp, ?_, ?_, ?_,
    by simp⟩
  · rintro x hx t k v ⟨f, hf, hh, hv⟩
    by_cases ht : t ∈ f.trainIds
    · have : ∀ f ∈ exDetSplit.files, ∀ x ∈ exSplitDet.sourceToModno, ∀ t ∈ f.trainIds,
          ∀ v ∈ fileEntries f true x.1 (ch! "image.pulseId") t, id v < 9999 := by decide
      exact this f hf x hx t ht v (List.mem_of_getElem? hv)
    · rw [fileEntries_notMem ht] at hv
      simp at hv
  · unfold Holds; decide
  · intro x hx
    refine ⟨followsIn_of_valid (exSplit_valid (.inl rfl) x hx), fun f hf hh ds hds => ?_⟩
    obtain ⟨n, ids, rows, -, e, e1, -⟩ := exSplit_data x hx f hf hh
    rw [e] at hds
    obtain rfl := Except.ok.inj (e1.symm.trans hds); rfl
  · intro x hx
    refine ⟨followsIn_of_valid (exSplit_valid (.inr (.inr rfl)) x hx), fun f hf hh ds hds => ?_⟩
    obtain ⟨n, ids, rows, -, e, -, e2⟩ := exSplit_data x hx f hf hh
    rw [e] at hds
    obtain rfl := Except.ok.inj (e2.symm.trans hds); rfl
  · intro _ x hx f hf hh
    constructor
    · rintro ⟨ds, hds⟩
      have hn : ∀ f ∈ exDetSplit.files, ∀ x ∈ exDet.sourceToModno,
          ((f.dataset (ch! "INSTRUMENT") x.1 (ch! "image." ++ ch! "gain")).toBool) = false := by decide
      have := hn f hf x hx
      rw [hds] at this
      simp [Except.toBool] at this
    · intro ds hds
      obtain ⟨n, ids, rows, -, e, e1, -⟩ := exSplit_data x hx f hf hh
      rw [e] at hds
      obtain rfl := Except.ok.inj (e1.symm.trans hds); rfl

set_option maxRecDepth 20000 in
/-- The example meets the hypotheses: the file made of the four files has the entries of that made of the two. -/
example : ∃ x', exSplitDet.writeVirtualCxi id [2, 2] = .ok x' ∧ x'.trainIds = [10, 10, 11, 11, 12, 12] ∧ x'.pulseIds = [5, 7, 5, 7, 5, 7] ∧
    ∃ l ∈ x'.layouts, l.name = ch! "data" ∧ (List.range 6).map (fun r => l.grid.cell r 3) =
      [some 100, some 101, some 110, some 111, none, none] := by
  obtain ⟨w1, -, -, w4, w5⟩ := exDet_write
  have hF : ∀ x ∈ exDet.sourceToModno, ∀ nm ∈ [ch! "data", ch! "gain", ch! "mask", ch! "cellId", ch! "pulseId"],
      (∀ f ∈ exDetData.files, Holds f x.1 → HasImageKey f x.1 nm) → HasField exDetData true x.1 (ch! "image." ++ nm) := by
    intro x hx nm hnm hk
    have hfile : ∃ f ∈ exDetData.files, Holds f x.1 := by
      obtain ⟨f, hf, hh, -⟩ := exDet_ready.hasFile x hx
      exact ⟨f, hf, hh⟩
    obtain ⟨f, hf, hh⟩ := hfile
    obtain ⟨ds, hds⟩ := hk f hf hh
    have hno : ∀ f ∈ exDetData.files, ∀ x ∈ exDet.sourceToModno, ∀ nm ∈ [ch! "gain", ch! "mask"],
        ((f.dataset (ch! "INSTRUMENT") x.1 (ch! "image." ++ nm)).toBool) = false := by decide
    simp only [List.mem_cons, List.not_mem_nil, or_false] at hnm
    rcases hnm with rfl | rfl | rfl | rfl | rfl
    · exact exSplit_field hx (.inl rfl)
    · have := hno f hf x hx (ch! "gain") (by simp)
      rw [hds] at this
      simp [Except.toBool] at this
    · have := hno f hf x hx (ch! "mask") (by simp)
      rw [hds] at this
      simp [Except.toBool] at this
    · exact exSplit_field hx (.inr (.inr rfl))
    · exact exSplit_field hx (.inr (.inl rfl))
  rcases data_cxi exSplit_sameData exDet_init exSplit_init (by decide) exDet_ready exSplit_ready hF exSplit_hasImages (by simp) with
    ⟨x, x', h3, h4, h5⟩ | ⟨h3, -⟩
  · rw [h3] at w1 w4 w5
    simp only [Except.map, Except.ok.injEq, Prod.mk.injEq] at w1 w4 w5
    refine ⟨x', h4, by rw [← h5.trainIds]; exact w1.1, by rw [← h5.pulseIds]; exact w1.2.1, ?_⟩
    have h6 := h5.layouts
    generalize x.layouts = ls at h6 w4 w5
    generalize x'.layouts = ls' at h6
    cases h6 with
    | nil => simp at w4
    | @cons l l' ls ls' hll _ =>
      simp only [List.map_cons, List.cons.injEq, Prod.mk.injEq] at w4 w5
      obtain ⟨⟨n1, -, n3, n4⟩, -⟩ := w4
      refine ⟨l', by simp, by rw [← hll.name, n1], ?_⟩
      rw [← w5.1]
      refine List.map_congr_left (fun r hr => ?_)
      rw [List.mem_range] at hr
      exact (hll.grid.cells r 3 (by omega) (by omega)).symm
  · rw [h3] at w1
    simp [Except.map] at w1

end KD
