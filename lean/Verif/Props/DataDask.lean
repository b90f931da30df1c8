/-
C150: lazy arrays of copies, of other layouts of files, and after selections.
-/
import Verif.Props.SameData
import Verif.Props.HistoryGaps
import Verif.Props.AnyIndexArrays

namespace KD

open Spec

variable {V : Type}

/-- C150. In a file written with `write` or `write_virtual` (also from a copy of a copy), the lazy array always works, and has the
entries which `get_array` gives for the original. -/
theorem copy_dask {c d d' : DC V} (hc : Copyable c) (h : CopyOf c d) {kind : WriteKind} {file : H5File V} {name : Str}
    (hw : d.writeAs kind = .ok file) (hs : ∀ p ∈ file.datasets, p.2.rows.length < 2 ^ 64)
    (ho : DC.fromPath (FileAccess.init name file none) = .ok d') {source key : Str} (hav : Available c source key) :
    ∃ a, c.getArray source key id = .ok a ∧ d'.getDaskArray source key = .ok a.rows := by
  obtain ⟨-, -, -, -, -, same⟩ := copies_same hc (.copy h hw hs ho)
  obtain ⟨k1, -, -, -, keys, -⟩ := copies_same hc h
  obtain ⟨a, h1, h2⟩ := same source key hav V id
  refine ⟨a, h1, ?_⟩
  obtain ⟨f, hf1, hf⟩ := written_full k1 hw hs name
  rw [hf1] at ho
  obtain rfl : d' = DC.single f := fromPath_eq.1 ho
  have hc' := single_copyable k1 hf
  have main : ∀ b, HasField d b source key → (DC.single f).getDaskArray source key = .ok a.rows := by
    intro b hF
    have hF' := (single_field hf b source key).2 hF
    obtain ⟨a', ha', hok, -⟩ := dask_array_eq_partial hc'.writable.noConflict (hc'.writable.valid b source key hF')
      (field_available hF') (hc'.same b source key hF')
    rw [h2] at ha'
    obtain rfl := Except.ok.inj ha'
    refine hok fun g hg hh => ?_
    obtain rfl := mem_single.1 hg
    obtain ⟨t, ht, g', hg', -, hne⟩ := hc'.data b source key hF'
    obtain rfl := mem_single.1 hg'
    have htr := single_trains k1.writable hf
    have hall : ∀ t ∈ g'.trainIds, t ∈ (DC.single g').trainIds := by
      intro t ht
      rw [htr, ← hf.trains]
      exact ht
    have htf : t ∈ g'.trainIds := by
      rw [hf.trains, ← htr]
      exact ht
    rintro ⟨-, hno | ⟨p, q, hr, hem⟩⟩
    · exact hno t htf ht
    · have hfalse : ∀ i : Nat, (g'.trainIds.map (fun t => decide (t ∈ (DC.single g').trainIds)))[i]? ≠ some false := by
        intro i hi
        rw [List.getElem?_map] at hi
        obtain ⟨t', h1', h2'⟩ := Option.map_eq_some_iff.1 hi
        exact absurd (hall t' (List.mem_of_getElem? h1')) (by simpa using h2')
      obtain ⟨i, hi⟩ := List.mem_iff_getElem?.1 htf
      have hlt : i < g'.trainIds.length := (List.getElem?_eq_some_iff.1 hi).1
      refine hne (hem i t ?_ ?_ hi)
      · rcases hr.2.2.2.1 with h0 | h0
        · omega
        · exact absurd h0 (hfalse _)
      · rcases hr.2.2.2.2 with h0 | h0
        · rw [h0, List.length_map]; exact hlt
        · exact absurd h0 (hfalse _)
  rcases field_of_available ((keys source key).2 hav) with hF | hF
  · exact main _ hF
  · exact main _ hF

/-- C150. Where the lazy array works in two collections with the same data, it is the same, however the data is spread over files. -/
theorem data_dask {c d : DC V} (h : SameData c d) (hc : NoConflict c.files) (hd : NoConflict d.files) {b : Bool} {s k : Str}
    (hF : HasField c b s k) (hv : FollowsIn c c.trainIds b s k) (hv' : FollowsIn d d.trainIds b s k)
    (hm : ¬ Mismatch c b s k) (hm' : ¬ Mismatch d b s k) (hio : TrainsInOrder c b s k) (hio' : TrainsInOrder d b s k) {rows rows' : List V}
    (hr : c.getDaskArray s k = .ok rows) (hr' : d.getDaskArray s k = .ok rows') : rows' = rows := by
  obtain ⟨a, ha, -⟩ := (get_array_mismatch_gaps id hc hv (field_available hF)).2 hm
  obtain ⟨a', ha', -⟩ := (get_array_mismatch_gaps id hd hv' (field_available ((sameData_field h b s k).1 hF))).2 hm'
  rw [dask_array_any_index hc (followsIn_readable hv) ha hr, dask_array_any_index hd (followsIn_readable hv') ha' hr']
  exact ((data_array h hc hd hF hv hv' ha ha').2.2.2 hio hio').1

/-- C150. But whether it works does depend on the files: trains 1 and 2 of which only the first has an entry, in one file; and in two
files, of which the second has an entry for train 3, which is not selected. -/
theorem dask_layout_wrong :
    let c : DC Nat := ⟨[exInst (ch! "a") [1, 2] [0, 1] [1, 0] [10]], [(ch! "D:o", none)], [1, 2], true⟩
    let d : DC Nat := ⟨[exInst (ch! "a") [1] [0] [1] [10], exInst (ch! "b") [2, 3] [0, 0] [0, 1] [30]], [(ch! "D:o", none)], [1, 2], true⟩
    (∀ t ∈ [1, 2], ∀ es, HoldsEntries c true (ch! "D:o") (ch! "data.y") t es ↔ HoldsEntries d true (ch! "D:o") (ch! "data.y") t es) ∧
    (c.getArray (ch! "D:o") (ch! "data.y") id).map LArr.rows = .ok [10] ∧ (d.getArray (ch! "D:o") (ch! "data.y") id).map LArr.rows = .ok [10] ∧
    c.getDaskArray (ch! "D:o") (ch! "data.y") = .ok [10] ∧ d.getDaskArray (ch! "D:o") (ch! "data.y") = .error .zeroDivision := by
  refine ⟨?_, by decide, by decide, by decide, by decide⟩
  intro t ht es
  simp only [List.mem_cons, List.not_mem_nil, or_false] at ht
  have key : ∀ (c d : DC Nat) (f g : FileAccess Nat), f ∈ c.files → Holds f (ch! "D:o") → t ∈ f.trainIds → g ∈ d.files → Holds g (ch! "D:o") →
      t ∈ g.trainIds → (∀ h ∈ c.files, t ∈ h.trainIds → h = f) → (∀ h ∈ d.files, t ∈ h.trainIds → h = g) →
      fileEntries f true (ch! "D:o") (ch! "data.y") t = fileEntries g true (ch! "D:o") (ch! "data.y") t →
      (HoldsEntries c true (ch! "D:o") (ch! "data.y") t es ↔ HoldsEntries d true (ch! "D:o") (ch! "data.y") t es) := by
    intro c d f g f1 f2 f3 g1 g2 g3 hf hg he
    constructor
    · rintro ⟨h1, -⟩
      refine ⟨fun x hx _ htx => ?_, fun hn => absurd ⟨g, g1, g2, g3⟩ hn⟩
      rw [hg x hx htx, ← he, h1 f f1 f2 f3]
    · rintro ⟨h1, -⟩
      refine ⟨fun x hx _ htx => ?_, fun hn => absurd ⟨f, f1, f2, f3⟩ hn⟩
      rw [hf x hx htx, he, h1 g g1 g2 g3]
  rcases ht with rfl | rfl
  · refine key _ _ (exInst (ch! "a") [1, 2] [0, 1] [1, 0] [10]) (exInst (ch! "a") [1] [0] [1] [10]) (by simp) (by unfold Holds; decide) (by decide)
      (by simp) (by unfold Holds; decide) (by decide) ?_ ?_ (by decide)
    · intro h hh _
      simpa using hh
    · intro h hh h1
      simp only [List.mem_cons, List.not_mem_nil, or_false] at hh
      rcases hh with rfl | rfl
      · rfl
      · exact absurd h1 (by decide)
  · refine key _ _ (exInst (ch! "a") [1, 2] [0, 1] [1, 0] [10]) (exInst (ch! "b") [2, 3] [0, 0] [0, 1] [30]) (by simp) (by unfold Holds; decide) (by decide)
      (by simp) (by unfold Holds; decide) (by decide) ?_ ?_ (by decide)
    · intro h hh _
      simpa using hh
    · intro h hh h1
      simp only [List.mem_cons, List.not_mem_nil, or_false] at hh
      rcases hh with rfl | rfl
      · exact absurd h1 (by decide)
      · rfl

/-- C150. After any number of `select`, `deselect` and `select_trains`, the lazy array has, where it works, the entries which `get_array`
gives for the selected trains in the original. -/
theorem narrowed_dask {c d : DC V} {instr : Bool} {source key : Str} {a : LArr V} (hn : DifferentNames c)
    (hc : NoConflict c.files) (hv : FollowsIn c c.trainIds instr source key) (ha : c.getArray source key id = .ok a)
    (h : Narrowed c d) (hvd : ∀ f ∈ d.files, Holds f source → FollowsOn f d.trainIds instr source key) (hav : Available d source key)
    {rows : List V} (hr : d.getDaskArray source key = .ok rows) :
    ∃ trains : List Nat, trains.length = rows.length ∧ (∀ t ∈ trains, t ∈ d.trainIds) ∧
      ∀ t ∈ d.trainIds, ((trains.zip rows).filter (fun x => x.1 = t)).map Prod.snd = labelled a t := by
  obtain ⟨b, h1, h2, h3, h4⟩ := narrowed_array_gaps hn hc hv ha h hvd hav
  obtain ⟨i1, -, -, i4⟩ := derived_parts hn hc h.derived
  have hvd' : FollowsIn d d.trainIds instr source key := fun f hf hh =>
    ⟨(hv f (i1 f hf) hh).1, (hv f (i1 f hf) hh).2.1, (hv f (i1 f hf) hh).2.2.1, hvd f hf hh⟩
  rw [dask_array_any_index i4 (followsIn_readable hvd') h1 hr]
  refine ⟨b.coords.getD [], h2, fun t ht => ?_, fun t ht => ?_⟩
  · by_contra hx
    have hnil := h4 t hx
    obtain ⟨i, hi⟩ := List.mem_iff_getElem?.1 ht
    have hlt : i < b.rows.length := by
      rw [← h2]
      exact (List.getElem?_eq_some_iff.1 hi).1
    have hz : (t, b.rows[i]) ∈ (b.coords.getD []).zip b.rows :=
      List.mem_of_getElem? (List.getElem?_zip_eq_some.2 ⟨hi, List.getElem?_eq_getElem hlt⟩)
    have : b.rows[i] ∈ labelled b t := by
      unfold labelled
      exact List.mem_map.2 ⟨_, List.mem_filter.2 ⟨hz, by simp⟩, rfl⟩
    rw [hnil] at this
    simp at this
  · rw [← h3 t ht]
    rfl

/-! ### Examples -/

/-- A file written from the example meets the hypotheses. -/
example : ∃ h d', exWrite.writeAs .copy = .ok h ∧ (∀ p ∈ h.datasets, p.2.rows.length < 2 ^ 64) ∧
    DC.fromPath (FileAccess.init (ch! "copy") h none) = .ok d' ∧
    d'.getDaskArray (ch! "D:o") (ch! "data.y") = (exWrite.getArray (ch! "D:o") (ch! "data.y") id).map LArr.rows ∧
    (exWrite.getArray (ch! "D:o") (ch! "data.y") id).map LArr.rows = .ok [10, 11, 12, 20] ∧
    exWrite.getDaskArray (ch! "D:o") (ch! "data.y") = .ok [10, 11, 12, 20] := by
  have hok : (exWrite.writeAs .copy).map (fun h => (decide (∀ p ∈ h.datasets, p.2.rows.length < 2 ^ 64),
      (DC.fromPath (FileAccess.init (ch! "copy") h none)).map DC.trainIds)) = .ok (true, .ok [1, 2, 3]) := by decide +kernel
  cases hw : exWrite.writeAs .copy with
  | error e => rw [hw] at hok; cases hok
  | ok h =>
    rw [hw] at hok
    obtain ⟨h1, h2⟩ := Prod.mk.inj (Except.ok.inj hok)
    cases hd : DC.fromPath (FileAccess.init (ch! "copy") h none) with
    | error e => rw [hd] at h2; cases h2
    | ok d' =>
      have hs : ∀ p ∈ h.datasets, p.2.rows.length < 2 ^ 64 := by simpa using h1
      refine ⟨h, d', rfl, hs, hd, ?_, by decide, by decide⟩
      obtain ⟨a, ha, hda⟩ := copy_dask exWrite_copyable.1 .self hw hs hd (source := ch! "D:o") (key := ch! "data.y")
        ⟨by decide, [ch! "data.y"], by decide, by decide⟩
      rw [ha, hda]
      rfl

/-- The lazy array of trains 3 and 4 of the example with gaps in the index, which meets the conditions of `narrowed_dask` (see
Props/HistoryGaps.lean). -/
example : (exHolesRun.selectTrains (.idList [3, 4])).bind (fun d => d.getDaskArray (ch! "D:o") (ch! "data.y")) = .ok [30, 31, 40] := by
  decide

end KD
